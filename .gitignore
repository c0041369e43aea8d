__pycache__/
lean/lake-manifest.json
