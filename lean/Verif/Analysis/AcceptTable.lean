import Verif.Analysis.GrammarTable
/-! Generated by tools/GenAccept.lean.txt: summaries of the functions (checked in Verif.Analysis.AcceptCheck*). -/
namespace Verif.GI
open AI Spec

/-- parse_statement -/
def e0 : Entry where
  args := [some (.bool true)]
  pre := [.N .Statement ALL]
  follow := 260740604970814219042361048116400404614587954389239840081425977517360806369707098391474864128
  post := [[.T ALL]]

/-- parse_statement -/
def e1 : Entry where
  args := [some (.bool true)]
  pre := [.N .Step ALL, .T 1024]
  follow := 260740604970814219042362183020893607946113512177965983186148277607400749266756941614533312516
  post := [[.T 1024]]

/-- parse_statement -/
def e2 : Entry where
  args := [some (.bool true)]
  pre := [.N .PlainStep ALL, .T 1024]
  follow := 0
  post := [[.T 1024]]

/-- parse_select_statement -/
def e3 : Entry where
  args := [some (.bool true), some (.bool true)]
  pre := [.N .SelPipe ALL]
  follow := 260740604970814219042361048116400404614587954389239840081425977517360806369707098391474864128
  post := [[.T ALL]]

/-- parse_select_statement -/
def e4 : Entry where
  args := [some (.bool true), some (.bool true)]
  pre := [.N .Query ALL]
  follow := 260740604970814219042361048116400404614587954389239840081425977517360806369707098391474864128
  post := [[.T ALL]]

/-- parse_from_statement -/
def e5 : Entry where
  args := []
  pre := [.N .FromHead ALL, .N .Pipes ALL]
  follow := 260740604970814219042361048116400404614587954389239840081425977517360806369707098391474864136
  post := [[.T ALL]]

/-- parse_from_statement -/
def e6 : Entry where
  args := []
  pre := [.N .FromHead ALL]
  follow := 260740604970814219042361048116400404614587954389239840081425977517360806369707098391474864136
  post := [[.T ALL]]

/-- parse_insert_statement -/
def e7 : Entry where
  args := [some (.bool true)]
  pre := [.N .Insert ALL]
  follow := 260740604970814219042361048116400404614587954389239840081425977517360806369707098391474864128
  post := [[.T ALL]]

/-- parse_insert_statement -/
def e8 : Entry where
  args := [some (.bool true)]
  pre := [.N .PipeInsert ALL]
  follow := 260740604970814219042361048116400404614587954389239840081425977517360806369707098391474864128
  post := [[.T ALL]]

/-- parse_delete_statement -/
def e9 : Entry where
  args := [some (.bool true)]
  pre := [.N .Delete ALL]
  follow := 260740604970814219042361048116400404614587954389239840081425977517360806369707098391474864128
  post := [[.T 252592461065476274697297617982283077816063232948369510617060092383401536750486495353075925000]]

/-- parse_truncate_statement -/
def e10 : Entry where
  args := [some (.bool true)]
  pre := [.N .Truncate ALL]
  follow := 260740604970814219042361048116400404614587954389239840081425977517360806369707098391474864128
  post := [[.T 24444431716013833035224799134085933214511338101922373520359910946738660790437621736310571008]]

/-- parse_update_statement -/
def e11 : Entry where
  args := [some (.bool true)]
  pre := [.N .Update ALL]
  follow := 260740604970814219042361048116400404614587954389239840081425977517360806369707098391474864128
  post := [[.T ALL]]

/-- parse_merge_statement -/
def e12 : Entry where
  args := [some (.bool true)]
  pre := [.N .Merge ALL]
  follow := 260740604970814219042361048116400404614587954389239840081425977517360806369707098391474864128
  post := [[.T 252592461065476274697297617982283077816063232948369510617060092383401536750486495353075925000]]

/-- parse_create_schema_statement -/
def e13 : Entry where
  args := [some (.bool true)]
  pre := [.N .CreateSchema ALL]
  follow := 260740604970814219042361048116400404614587954389239840081425977517360806369707098391474864128
  post := [[.T 252592461065476274697297617982283077816063232948369510617060092383401536750486495353075925000]]

/-- parse_create_function_statement -/
def e14 : Entry where
  args := [some (.bool true)]
  pre := [.N .CreateFunction ALL]
  follow := 260740604970814219042361048116400404614587954389239840081425977517360806369707098391474864128
  post := [[.T ALL]]

/-- parse_create_function_statement -/
def e15 : Entry where
  args := [some (.bool true)]
  pre := [.N .PipeFunction ALL]
  follow := 260740604970814219042361048116400404614587954389239840081425977517360806369707098391474864128
  post := [[.T ALL]]

/-- parse_create_table_statement -/
def e16 : Entry where
  args := [some (.bool true)]
  pre := [.N .CreateTable ALL]
  follow := 260740604970814219042361048116400404614587954389239840081425977517360806369707098391474864128
  post := [[.T ALL]]

/-- parse_create_table_statement -/
def e17 : Entry where
  args := [some (.bool true)]
  pre := [.N .PipeTable ALL]
  follow := 260740604970814219042361048116400404614587954389239840081425977517360806369707098391474864128
  post := [[.T ALL]]

/-- parse_create_view_statement -/
def e18 : Entry where
  args := [some (.bool true)]
  pre := [.N .CreateView ALL]
  follow := 260740604970814219042361048116400404614587954389239840081425977517360806369707098391474864128
  post := [[.T ALL]]

/-- parse_create_view_statement -/
def e19 : Entry where
  args := [some (.bool true)]
  pre := [.N .PipeView ALL]
  follow := 260740604970814219042361048116400404614587954389239840081425977517360806369707098391474864128
  post := [[.T ALL]]

/-- parse_create_procedure_statement -/
def e20 : Entry where
  args := [some (.bool true)]
  pre := [.N .CreateProcedure ALL]
  follow := 260740604970814219042361048116400404614587954389239840081425977517360806369707098391474864128
  post := [[.T 252592461065476274697297617982283077816063232948369510617060092383401536750486495353075925000]]

/-- parse_create_row_access_policy_statement -/
def e21 : Entry where
  args := [some (.bool true)]
  pre := [.N .CreatePolicy ALL]
  follow := 260740604970814219042361048116400404614587954389239840081425977517360806369707098391474864128
  post := [[.T 252592461065476274697297617982283077816063232948369510617060092383401536750486495353075925000]]

/-- parse_create_reservation_statement -/
def e22 : Entry where
  args := [some (.bool true)]
  pre := [.N .CreateReservation ALL]
  follow := 260740604970814219042361048116400404614587954389239840081425977517360806369707098391474864128
  post := [[.T 252592461065476274697297617982283077816063232948369510617060092383401536750486495353075925000]]

/-- parse_create_search_index_statement -/
def e23 : Entry where
  args := [some (.bool true)]
  pre := [.N .CreateIndex ALL]
  follow := 260740604970814219042361048116400404614587954389239840081425977517360806369707098391474864128
  post := [[.T 252592461065476274697297617982283077816063232948369510617060092383401536750486495353075925000]]

/-- parse_create_model_statement -/
def e24 : Entry where
  args := [some (.bool true)]
  pre := [.N .CreateModel ALL]
  follow := 260740604970814219042361048116400404614587954389239840081425977517360806369707098391474864128
  post := [[.T ALL]]

/-- parse_alter_schema_statement -/
def e25 : Entry where
  args := [some (.bool true)]
  pre := [.N .AlterSchema ALL]
  follow := 260740604970814219042361048116400404614587954389239840081425977517360806369707098391474864128
  post := [[.T 89629582958717387795815061163186034368158326699232333540716405326078862382864396334179287048]]

/-- parse_alter_table_statement -/
def e26 : Entry where
  args := [some (.bool true)]
  pre := [.N .AlterTable ALL]
  follow := 260740604970814219042361048116400404614587954389239840081425977517360806369707098391474864128
  post := [[.T 252592461065476274697297617982283077816063232948369510617060092383401536750486495353076056072]]

/-- parse_alter_column_statement -/
def e27 : Entry where
  args := [some (.bool true)]
  pre := [.N .AlterColumn ALL]
  follow := 260740604970814219042361048116400404614587954389239840081425977517360806369707098391474864128
  post := [[.T 252592461065476274697297617982283077816063232948369510617060092383401536750486495353076056072]]

/-- parse_alter_view_statement -/
def e28 : Entry where
  args := [some (.bool true)]
  pre := [.N .AlterView ALL]
  follow := 260740604970814219042361048116400404614587954389239840081425977517360806369707098391474864128
  post := [[.T 252592461065476274697297617982283077816063232948369510617060092383401536750486495353076056072]]

/-- parse_alter_vector_index_statement -/
def e29 : Entry where
  args := [some (.bool true)]
  pre := [.N .AlterIndex ALL]
  follow := 260740604970814219042361048116400404614587954389239840081425977517360806369707098391474864128
  post := [[.T 8148143905337944345073782753637512644205873574663745002544561797417525199053346824733589504]]

/-- parse_alter_organization_statement -/
def e30 : Entry where
  args := [some (.bool true)]
  pre := [.T 33554432, .T 2854495385411919762116571938898990272765493248, .T 12554203470773361527671578846415332832204710888928069025792, .N .Options ALL]
  follow := 260740604970814219042361048116400404614587954389239840081425977517360806369707098391474864128
  post := [[.T 8]]

/-- parse_alter_project_statement -/
def e31 : Entry where
  args := [some (.bool true)]
  pre := [.T 33554432, .T 23384026197294446691258957323460528314494920687616, .N .TableNameOpt ALL, .T 12554203470773361527671578846415332832204710888928069025792, .N .Options ALL]
  follow := 260740604970814219042361048116400404614587954389239840081425977517360806369707098391474864128
  post := [[.T 8]]

/-- parse_alter_bicapacity_statement -/
def e32 : Entry where
  args := [some (.bool true)]
  pre := [.T 33554432, .T 1099511627776, .N .TableName ALL, .T 12554203470773361527671578846415332832204710888928069025792, .N .Options ALL]
  follow := 260740604970814219042361048116400404614587954389239840081425977517360806369707098391474864128
  post := [[.T 8]]

/-- parse_alter_reservation_statement -/
def e33 : Entry where
  args := [some (.bool true)]
  pre := [.T 33554432, .T 35184372088832, .N .TableName ALL, .T 12554203470773361527671578846415332832204710888928069025792, .N .Options ALL]
  follow := 260740604970814219042361048116400404614587954389239840081425977517360806369707098391474864128
  post := [[.T 8]]

/-- parse_alter_reservation_statement -/
def e34 : Entry where
  args := [some (.bool true)]
  pre := [.T 33554432, .T 383123885216472214589586756787577295904684780545900544, .N .TableName ALL, .T 12554203470773361527671578846415332832204710888928069025792, .N .Options ALL]
  follow := 260740604970814219042361048116400404614587954389239840081425977517360806369707098391474864128
  post := [[.T 8]]

/-- parse_alter_model_statement -/
def e35 : Entry where
  args := [some (.bool true)]
  pre := [.T 33554432, .T 174224571863520493293247799005065324265472, .N .IfExistsOpt ALL, .N .TableName ALL, .T 12554203470773361527671578846415332832204710888928069025792, .N .Options ALL]
  follow := 260740604970814219042361048116400404614587954389239840081425977517360806369707098391474864128
  post := [[.T 8]]

/-- parse_drop_row_access_policy_statement -/
def e36 : Entry where
  args := [some (.bool true)]
  pre := [.N .DropPolicy ALL]
  follow := 260740604970814219042361048116400404614587954389239840081425977517360806369707098391474864128
  post := [[.T 24444431716013833035224799134085933214511338101922373520359910946738660790437621736310571008]]

/-- parse_drop_statement_general -/
def e37 : Entry where
  args := [some (.bool true)]
  pre := [.N .Drop ALL]
  follow := 260740604970814219042361048116400404614587954389239840081425977517360806369707098391474864128
  post := [[.T 24444431716013833035224799134085933214511338101922373520359910946738660790437621736310571008]]

/-- parse_undrop_statement -/
def e38 : Entry where
  args := [some (.bool true)]
  pre := [.N .Undrop ALL]
  follow := 260740604970814219042361048116400404614587954389239840081425977517360806369707098391474864128
  post := [[.T 24444431716013833035224799134085933214511338101922373520359910946738660790437621736310571008]]

/-- parse_grant_statement -/
def e39 : Entry where
  args := [some (.bool true)]
  pre := [.N .Grant ALL]
  follow := 260740604970814219042361048116400404614587954389239840081425977517360806369707098391474864128
  post := [[.T 252592461065476274697297617982283077816063232948369510617060092383401536750486495353075925000]]

/-- parse_revoke_statement -/
def e40 : Entry where
  args := [some (.bool true)]
  pre := [.N .Revoke ALL]
  follow := 260740604970814219042361048116400404614587954389239840081425977517360806369707098391474864128
  post := [[.T 252592461065476274697297617982283077816063232948369510617060092383401536750486495353075925000]]

/-- parse_declare_statement -/
def e41 : Entry where
  args := [some (.bool true)]
  pre := [.N .Declare ALL]
  follow := 260740604970814219042361048116400404614587954389239840081425977517360806369707098391474864128
  post := [[.T 252592461065476274697297617982283077816063232948369510617060092383401536750486495353076056072]]

/-- parse_set_statement -/
def e42 : Entry where
  args := [some (.bool true)]
  pre := [.N .Set ALL]
  follow := 260740604970814219042361048116400404614587954389239840081425977517360806369707098391474864128
  post := [[.T 252592461065476274697297617982283077816063232948369510617060092383401536750486495353075925000]]

/-- parse_execute_statement -/
def e43 : Entry where
  args := [some (.bool true)]
  pre := [.N .Execute ALL]
  follow := 260740604970814219042361048116400404614587954389239840081425977517360806369707098391474864128
  post := [[.T 252592461065476274697297617982283077816063232948369510617060092383401536750486495353075925000]]

/-- parse_if_statement -/
def e44 : Entry where
  args := [some (.bool true)]
  pre := [.N .If ALL]
  follow := 260740604970814219042361048116400404614587954389239840081425977517360806369707098391474864128
  post := [[.T 162259276829213363391578010288128]]

/-- parse_transaction_statement -/
def e45 : Entry where
  args := [some (.bool true)]
  pre := [.N .Transaction ALL]
  follow := 260740604970814219042361048116400404614587954389239840081425977517360806369707098391474864128
  post := [[.T 411376188370158818247185763106442495055577842217054143686639616]]

/-- parse_begin_statement -/
def e46 : Entry where
  args := [some (.bool true)]
  pre := [.N .Begin ALL]
  follow := 260740604970814219042361048116400404614587954389239840081425977517360806369707098391474864128
  post := [[.T 302231454903657293676544]]

/-- parse_case_statement -/
def e47 : Entry where
  args := [some (.bool true)]
  pre := [.N .Case ALL]
  follow := 260740604970814219042361048116400404614587954389239840081425977517360806369707098391474864128
  post := [[.T 140737488355328]]

/-- parse_load_statement -/
def e48 : Entry where
  args := [some (.bool true)]
  pre := [.N .Load ALL]
  follow := 260740604970814219042361048116400404614587954389239840081425977517360806369707098391474864128
  post := [[.T 24444431716013833035224799134085933214511338101922373520359910946738660790437621736310571016]]

/-- parse_loop_statement -/
def e49 : Entry where
  args := [some (.bool true)]
  pre := [.N .Loop ALL]
  follow := 260740604970814219042361048116400404614587954389239840081425977517360806369707098391474864128
  post := [[.T 5444517870735015415413993718908291383296]]

/-- parse_repeat_statement -/
def e50 : Entry where
  args := [some (.bool true)]
  pre := [.N .Repeat ALL]
  follow := 260740604970814219042361048116400404614587954389239840081425977517360806369707098391474864128
  post := [[.T 47890485652059026823698344598447161988085597568237568]]

/-- parse_while_statement -/
def e51 : Entry where
  args := [some (.bool true)]
  pre := [.N .While ALL]
  follow := 260740604970814219042361048116400404614587954389239840081425977517360806369707098391474864128
  post := [[.T 215679573337205118357336120696157045389097155380324579848828881993728]]

/-- parse_for_statement -/
def e52 : Entry where
  args := [some (.bool true)]
  pre := [.N .For ALL]
  follow := 260740604970814219042361048116400404614587954389239840081425977517360806369707098391474864128
  post := [[.T 39614081257132168796771975168]]

/-- parse_raise_statement -/
def e53 : Entry where
  args := [some (.bool true)]
  pre := [.N .Raise ALL]
  follow := 260740604970814219042361048116400404614587954389239840081425977517360806369707098391474864128
  post := [[.T 252592461065476274697297617982283077816063232948369510617060092383401536750486495353075925000]]

/-- parse_single_token_statement -/
def e54 : Entry where
  args := [some (.bool true)]
  pre := [.T 3064991081731777716716694054300618367237478244367204352]
  follow := 260740604970814219042361048116400404614587954389239840081425977517360806369707098391474864128
  post := [[.T 3064991081731777716716694054300618367237478244367204352]]

/-- parse_call_statement -/
def e55 : Entry where
  args := [some (.bool true)]
  pre := [.N .Call ALL]
  follow := 260740604970814219042361048116400404614587954389239840081425977517360806369707098391474864128
  post := [[.T 252592461065476274697297617982283077816063232948369510617060092383401536750486495353075925000]]

/-- parse_assert_satement -/
def e56 : Entry where
  args := [some (.bool true)]
  pre := [.N .Assert ALL]
  follow := 260740604970814219042361048116400404614587954389239840081425977517360806369707098391474864128
  post := [[.T 252592461065476274697297617982283077816063232948369510617060092383401536750486495353075925000]]

/-- parse_export_data_statement -/
def e57 : Entry where
  args := [some (.bool true)]
  pre := [.N .ExportData ALL]
  follow := 260740604970814219042361048116400404614587954389239840081425977517360806369707098391474864128
  post := [[.T ALL]]

/-- parse_export_data_statement -/
def e58 : Entry where
  args := [some (.bool true)]
  pre := [.N .PipeExport ALL]
  follow := 260740604970814219042361048116400404614587954389239840081425977517360806369707098391474864128
  post := [[.T ALL]]

/-- parse_export_model_statement -/
def e59 : Entry where
  args := [some (.bool true)]
  pre := [.N .ExportModel ALL]
  follow := 260740604970814219042361048116400404614587954389239840081425977517360806369707098391474864128
  post := [[.T 24444431716013833035224799134085933214511338101922373520359910946738660790437621736310571016]]

/-- parse_select_statement -/
def e60 : Entry where
  args := [some (.bool true), some (.bool true)]
  pre := [.N .SelPipe ALL, .T 1024]
  follow := 0
  post := [[.T 1024]]

/-- parse_select_statement -/
def e61 : Entry where
  args := [some (.bool true), some (.bool true)]
  pre := [.N .Query ALL, .T 1024]
  follow := 0
  post := [[.T 1024]]

/-- parse_from_statement -/
def e62 : Entry where
  args := []
  pre := [.N .FromHead ALL, .N .Pipes ALL, .T 1024]
  follow := 0
  post := [[.T 1024]]

/-- parse_from_statement -/
def e63 : Entry where
  args := []
  pre := [.N .FromHead ALL, .T 1024]
  follow := 0
  post := [[.T 1024]]

/-- parse_insert_statement -/
def e64 : Entry where
  args := [some (.bool true)]
  pre := [.N .Insert ALL, .T 1024]
  follow := 0
  post := [[.T 1024]]

/-- parse_insert_statement -/
def e65 : Entry where
  args := [some (.bool true)]
  pre := [.N .PipeInsert ALL, .T 1024]
  follow := 260740604970814219042362183020893607946113512177965983186148277607400749266756941614533312516
  post := [[.T 1024]]

/-- parse_delete_statement -/
def e66 : Entry where
  args := [some (.bool true)]
  pre := [.N .Delete ALL, .T 1024]
  follow := 0
  post := [[.T 1024]]

/-- parse_truncate_statement -/
def e67 : Entry where
  args := [some (.bool true)]
  pre := [.N .Truncate ALL, .T 1024]
  follow := 0
  post := [[.T 1024]]

/-- parse_update_statement -/
def e68 : Entry where
  args := [some (.bool true)]
  pre := [.N .Update ALL, .T 1024]
  follow := 0
  post := [[.T 1024]]

/-- parse_merge_statement -/
def e69 : Entry where
  args := [some (.bool true)]
  pre := [.N .Merge ALL, .T 1024]
  follow := 0
  post := [[.T 1024]]

/-- parse_create_schema_statement -/
def e70 : Entry where
  args := [some (.bool true)]
  pre := [.N .CreateSchema ALL, .T 1024]
  follow := 0
  post := [[.T 1024]]

/-- parse_create_function_statement -/
def e71 : Entry where
  args := [some (.bool true)]
  pre := [.N .CreateFunction ALL, .T 1024]
  follow := 0
  post := [[.T 1024]]

/-- parse_create_function_statement -/
def e72 : Entry where
  args := [some (.bool true)]
  pre := [.N .PipeFunction ALL, .T 1024]
  follow := 260740604970814219042362183020893607946113512177965983186148277607400749266756941614533312516
  post := [[.T 1024]]

/-- parse_create_table_statement -/
def e73 : Entry where
  args := [some (.bool true)]
  pre := [.N .CreateTable ALL, .T 1024]
  follow := 0
  post := [[.T 1024]]

/-- parse_create_table_statement -/
def e74 : Entry where
  args := [some (.bool true)]
  pre := [.N .PipeTable ALL, .T 1024]
  follow := 260740604970814219042362183020893607946113512177965983186148277607400749266756941614533312516
  post := [[.T 1024]]

/-- parse_create_view_statement -/
def e75 : Entry where
  args := [some (.bool true)]
  pre := [.N .CreateView ALL, .T 1024]
  follow := 0
  post := [[.T 1024]]

/-- parse_create_view_statement -/
def e76 : Entry where
  args := [some (.bool true)]
  pre := [.N .PipeView ALL, .T 1024]
  follow := 260740604970814219042362183020893607946113512177965983186148277607400749266756941614533312516
  post := [[.T 1024]]

/-- parse_create_procedure_statement -/
def e77 : Entry where
  args := [some (.bool true)]
  pre := [.N .CreateProcedure ALL, .T 1024]
  follow := 0
  post := [[.T 1024]]

/-- parse_create_row_access_policy_statement -/
def e78 : Entry where
  args := [some (.bool true)]
  pre := [.N .CreatePolicy ALL, .T 1024]
  follow := 0
  post := [[.T 1024]]

/-- parse_create_reservation_statement -/
def e79 : Entry where
  args := [some (.bool true)]
  pre := [.N .CreateReservation ALL, .T 1024]
  follow := 0
  post := [[.T 1024]]

/-- parse_create_search_index_statement -/
def e80 : Entry where
  args := [some (.bool true)]
  pre := [.N .CreateIndex ALL, .T 1024]
  follow := 0
  post := [[.T 1024]]

/-- parse_create_model_statement -/
def e81 : Entry where
  args := [some (.bool true)]
  pre := [.N .CreateModel ALL, .T 1024]
  follow := 0
  post := [[.T 1024]]

/-- parse_alter_schema_statement -/
def e82 : Entry where
  args := [some (.bool true)]
  pre := [.N .AlterSchema ALL, .T 1024]
  follow := 0
  post := [[.T 1024]]

/-- parse_alter_table_statement -/
def e83 : Entry where
  args := [some (.bool true)]
  pre := [.N .AlterTable ALL, .T 1024]
  follow := 0
  post := [[.T 1024]]

/-- parse_alter_column_statement -/
def e84 : Entry where
  args := [some (.bool true)]
  pre := [.N .AlterColumn ALL, .T 1024]
  follow := 0
  post := [[.T 1024]]

/-- parse_alter_view_statement -/
def e85 : Entry where
  args := [some (.bool true)]
  pre := [.N .AlterView ALL, .T 1024]
  follow := 0
  post := [[.T 1024]]

/-- parse_alter_vector_index_statement -/
def e86 : Entry where
  args := [some (.bool true)]
  pre := [.N .AlterIndex ALL, .T 1024]
  follow := 0
  post := [[.T 1024]]

/-- parse_alter_organization_statement -/
def e87 : Entry where
  args := [some (.bool true)]
  pre := [.T 33554432, .T 2854495385411919762116571938898990272765493248, .T 12554203470773361527671578846415332832204710888928069025792, .N .Options ALL, .T 1024]
  follow := 0
  post := [[.T 1024]]

/-- parse_alter_project_statement -/
def e88 : Entry where
  args := [some (.bool true)]
  pre := [.T 33554432, .T 23384026197294446691258957323460528314494920687616, .N .TableNameOpt ALL, .T 12554203470773361527671578846415332832204710888928069025792, .N .Options ALL, .T 1024]
  follow := 0
  post := [[.T 1024]]

/-- parse_alter_bicapacity_statement -/
def e89 : Entry where
  args := [some (.bool true)]
  pre := [.T 33554432, .T 1099511627776, .N .TableName ALL, .T 12554203470773361527671578846415332832204710888928069025792, .N .Options ALL, .T 1024]
  follow := 0
  post := [[.T 1024]]

/-- parse_alter_reservation_statement -/
def e90 : Entry where
  args := [some (.bool true)]
  pre := [.T 33554432, .T 35184372088832, .N .TableName ALL, .T 12554203470773361527671578846415332832204710888928069025792, .N .Options ALL, .T 1024]
  follow := 0
  post := [[.T 1024]]

/-- parse_alter_reservation_statement -/
def e91 : Entry where
  args := [some (.bool true)]
  pre := [.T 33554432, .T 383123885216472214589586756787577295904684780545900544, .N .TableName ALL, .T 12554203470773361527671578846415332832204710888928069025792, .N .Options ALL, .T 1024]
  follow := 0
  post := [[.T 1024]]

/-- parse_alter_model_statement -/
def e92 : Entry where
  args := [some (.bool true)]
  pre := [.T 33554432, .T 174224571863520493293247799005065324265472, .N .IfExistsOpt ALL, .N .TableName ALL, .T 12554203470773361527671578846415332832204710888928069025792, .N .Options ALL, .T 1024]
  follow := 0
  post := [[.T 1024]]

/-- parse_drop_row_access_policy_statement -/
def e93 : Entry where
  args := [some (.bool true)]
  pre := [.N .DropPolicy ALL, .T 1024]
  follow := 0
  post := [[.T 1024]]

/-- parse_drop_statement_general -/
def e94 : Entry where
  args := [some (.bool true)]
  pre := [.N .Drop ALL, .T 1024]
  follow := 0
  post := [[.T 1024]]

/-- parse_undrop_statement -/
def e95 : Entry where
  args := [some (.bool true)]
  pre := [.N .Undrop ALL, .T 1024]
  follow := 0
  post := [[.T 1024]]

/-- parse_grant_statement -/
def e96 : Entry where
  args := [some (.bool true)]
  pre := [.N .Grant ALL, .T 1024]
  follow := 0
  post := [[.T 1024]]

/-- parse_revoke_statement -/
def e97 : Entry where
  args := [some (.bool true)]
  pre := [.N .Revoke ALL, .T 1024]
  follow := 0
  post := [[.T 1024]]

/-- parse_declare_statement -/
def e98 : Entry where
  args := [some (.bool true)]
  pre := [.N .Declare ALL, .T 1024]
  follow := 0
  post := [[.T 1024]]

/-- parse_set_statement -/
def e99 : Entry where
  args := [some (.bool true)]
  pre := [.N .Set ALL, .T 1024]
  follow := 0
  post := [[.T 1024]]

/-- parse_execute_statement -/
def e100 : Entry where
  args := [some (.bool true)]
  pre := [.N .Execute ALL, .T 1024]
  follow := 0
  post := [[.T 1024]]

/-- parse_if_statement -/
def e101 : Entry where
  args := [some (.bool true)]
  pre := [.N .If ALL, .T 1024]
  follow := 0
  post := [[.T 1024]]

/-- parse_transaction_statement -/
def e102 : Entry where
  args := [some (.bool true)]
  pre := [.N .Transaction ALL, .T 1024]
  follow := 0
  post := [[.T 1024]]

/-- parse_begin_statement -/
def e103 : Entry where
  args := [some (.bool true)]
  pre := [.N .Begin ALL, .T 1024]
  follow := 0
  post := [[.T 1024]]

/-- parse_case_statement -/
def e104 : Entry where
  args := [some (.bool true)]
  pre := [.N .Case ALL, .T 1024]
  follow := 0
  post := [[.T 1024]]

/-- parse_load_statement -/
def e105 : Entry where
  args := [some (.bool true)]
  pre := [.N .Load ALL, .T 1024]
  follow := 0
  post := [[.T 1024]]

/-- parse_loop_statement -/
def e106 : Entry where
  args := [some (.bool true)]
  pre := [.N .Loop ALL, .T 1024]
  follow := 0
  post := [[.T 1024]]

/-- parse_repeat_statement -/
def e107 : Entry where
  args := [some (.bool true)]
  pre := [.N .Repeat ALL, .T 1024]
  follow := 0
  post := [[.T 1024]]

/-- parse_while_statement -/
def e108 : Entry where
  args := [some (.bool true)]
  pre := [.N .While ALL, .T 1024]
  follow := 0
  post := [[.T 1024]]

/-- parse_break_continue_statement -/
def e109 : Entry where
  args := [some (.bool true)]
  pre := [.N .Jump ALL, .T 1024]
  follow := 0
  post := [[.T 1024]]

/-- parse_for_statement -/
def e110 : Entry where
  args := [some (.bool true)]
  pre := [.N .For ALL, .T 1024]
  follow := 0
  post := [[.T 1024]]

/-- parse_raise_statement -/
def e111 : Entry where
  args := [some (.bool true)]
  pre := [.N .Raise ALL, .T 1024]
  follow := 0
  post := [[.T 1024]]

/-- parse_single_token_statement -/
def e112 : Entry where
  args := [some (.bool true)]
  pre := [.T 3064991081731777716716694054300618367237478244367204352, .T 1024]
  follow := 0
  post := [[.T 1024]]

/-- parse_call_statement -/
def e113 : Entry where
  args := [some (.bool true)]
  pre := [.N .Call ALL, .T 1024]
  follow := 0
  post := [[.T 1024]]

/-- parse_assert_satement -/
def e114 : Entry where
  args := [some (.bool true)]
  pre := [.N .Assert ALL, .T 1024]
  follow := 0
  post := [[.T 1024]]

/-- parse_export_data_statement -/
def e115 : Entry where
  args := [some (.bool true)]
  pre := [.N .ExportData ALL, .T 1024]
  follow := 0
  post := [[.T 1024]]

/-- parse_export_data_statement -/
def e116 : Entry where
  args := [some (.bool true)]
  pre := [.N .PipeExport ALL, .T 1024]
  follow := 260740604970814219042362183020893607946113512177965983186148277607400749266756941614533312516
  post := [[.T 1024]]

/-- parse_export_model_statement -/
def e117 : Entry where
  args := [some (.bool true)]
  pre := [.N .ExportModel ALL, .T 1024]
  follow := 0
  post := [[.T 1024]]

/-- parse_select_statement -/
def e118 : Entry where
  args := [some (.bool false), some (.bool true)]
  pre := [.N .SelPipe ALL]
  follow := 260740604970814219042361048116400404614587954389239840081425977517360806369707098391474864136
  post := [[.T ALL]]

/-- parse_select_statement -/
def e119 : Entry where
  args := [some (.bool false), some (.bool true)]
  pre := [.N .Query ALL]
  follow := 260740604970814219042361048116400404614587954389239840081425977517360806369707098391474865160
  post := [[.T ALL]]

/-- parse_with_clause -/
def e120 : Entry where
  args := []
  pre := [.N .With ALL]
  follow := 110427941548655297700691480477196243028641268133792344295395225791102980
  post := [[.T 8]]

/-- parse_keyword_with_grouped_exprs -/
def e121 : Entry where
  args := [some (.bool false)]
  pre := [.N .Options ALL]
  follow := 513333066036290493740094597968912951404574650474615614227466453146532388252011409247208342780
  post := [[.T 8]]

/-- parse_exprs -/
def e122 : Entry where
  args := [some (.kws [.FROM, .WHERE, .GROUP, .HAVING, .QUALIFY, .WINDOW, .ORDER, .LIMIT, .UNION, .INTERSECT, .EXCEPT, .sym_semi, .sym_rparen]), some (.bool true), some (.bool true)]
  pre := [.N .SelectList ALL]
  follow := 260740604970814219042471476163261345303744097193799530257439319285716856544635345181557654536
  post := [[.T 252592461065476274697297617982283077816063232948369510617060092383401536750486495353075925016]]

/-- parse_exprs -/
def e123 : Entry where
  args := [some (.kws [.FROM, .WHERE, .GROUP, .HAVING, .QUALIFY, .WINDOW, .ORDER, .LIMIT, .UNION, .INTERSECT, .EXCEPT, .sym_semi, .sym_rparen]), some (.bool true), some (.bool true)]
  pre := [.N .SelectList ALL, .T 64]
  follow := 316912650057057350374175801344
  post := [[.T 64]]

/-- parse_table -/
def e124 : Entry where
  args := [some (.bool true)]
  pre := [.N .TableExprP ALL]
  follow := 260740604970814219042472015256882396647982897360870050432336212962809305623950590606680523784
  post := [[.T ALL]]

/-- parse_identifier -/
def e125 : Entry where
  args := []
  pre := [.N .TableName ALL]
  follow := 285185036686828052077694495580282349790862935200235171117043483796265556831008771994107774028
  post := [[.T 24444431716013833035224799134085933214511338101922373520359910946738660790437621736310571008]]

/-- parse_table -/
def e126 : Entry where
  args := [some (.bool true)]
  pre := [.N .TableExpr ALL]
  follow := 260740604970814219042361587420646051850144598738353173380387812328355621368634692888812323848
  post := [[.T ALL]]

/-- parse_table -/
def e127 : Entry where
  args := [some (.bool true)]
  pre := [.N .TableName ALL, .N .AliasOpt ALL]
  follow := 260740604970814219042361051486393738008417928722616725958879811722003859187278658529426146304
  post := [[.T ALL]]

/-- parse_n_keywords -/
def e128 : Entry where
  args := [some (.nat 3)]
  pre := [.T 162259276829213363391578010288128, .T 2787593149816327892691964784081045188247552, .T 77371252455336267181195264]
  follow := 24444431716013833035221607389709440909145710549390238663953313042748819551734042463597232128
  post := [[.T 77371252455336267181195264]]

/-- parse_n_keywords -/
def e129 : Entry where
  args := [some (.nat 2)]
  pre := [.T 713623846352979940529142984724747568191373312, .T 95780971304118053647396689196894323976171195136475136]
  follow := 40439930474266364625600224159063833745280674662976026547116612517888
  post := [[.T 95780971304118053647396689196894323976171195136475136]]

/-- parse_n_keywords -/
def e130 : Entry where
  args := [some (.nat 3)]
  pre := [.T 196159429230833773869868419475239575503198607639501078528, .T 8148143905337944345073782753637512644205873574663745002544561797417525199053346824733589504, .T 8148143905337944345073782753637512644205873574663745002544561797417525199053346824733589504]
  follow := 24444431716013833035221607389709440909145710549390238663953475302025648765097434041607520256
  post := [[.T 8148143905337944345073782753637512644205873574663745002544561797417525199053346824733589504]]

/-- parse_n_keywords -/
def e131 : Entry where
  args := [some (.nat 2)]
  pre := [.T 162259276829213363391578010288128, .T 77371252455336267181195264]
  follow := 285185036686828052077582655506109845523733664938630078745379290560109625921441140855072097344
  post := [[.T 77371252455336267181195264]]

/-- parse_n_keywords -/
def e132 : Entry where
  args := [some (.nat 2)]
  pre := [.T 18446744073709551616, .T 13164036458569648337239753460458804039861886925068638906788872192]
  follow := 24444431716013833035221607389709842643657523585797437576853595369770358081445039940804018176
  post := [[.T 13164036458569648337239753460458804039861886925068638906788872192]]

/-- parse_expr -/
def e133 : Entry where
  args := [some (.nat 4294967295), some (.bool false), some (.bool false), some (.bool false), some (.bool true)]
  pre := [.N .NotUnary ALL, .N .Tail ALL, .N .OrdOpt ALL]
  follow := 285185036686828052077701185798897675416964469318718184224603654469054822715592722753827898440
  post := [[.T 252592461065476274697297617982283077816063232948369510617060092383401536750486495353075925000]]

/-- parse_n_keywords -/
def e134 : Entry where
  args := [some (.nat 2)]
  pre := [.T 37778931862957161709568, .T 590295810358705651712]
  follow := 260740604970814219042361048116400404614587954389239840081425977517360806369707098391474865152
  post := [[.T 590295810358705651712]]

/-- parse_n_keywords -/
def e135 : Entry where
  args := [some (.nat 3)]
  pre := [.T 37778931862957161709568, .T 2787593149816327892691964784081045188247552, .T 5575186299632655785383929568162090376495104]
  follow := 260740604970814219042361048116400404614587954389239840081425977517360806369707098391474865152
  post := [[.T 5575186299632655785383929568162090376495104]]

/-- parse_n_keywords -/
def e136 : Entry where
  args := [some (.nat 4)]
  pre := [.T 16777216, .T 196159429230833773869868419475239575503198607639501078528, .T 8148143905337944345073782753637512644205873574663745002544561797417525199053346824733589504, .T 8148143905337944345073782753637512644205873574663745002544561797417525199053346824733589504]
  follow := 178405961588244985132285746181186892047843328
  post := [[.T 8148143905337944345073782753637512644205873574663745002544561797417525199053346824733589504]]

/-- parse_exprs -/
def e137 : Entry where
  args := [some (.kws []), some (.bool false), some (.bool true)]
  pre := [.N .ExprList ALL]
  follow := 260740604970814219042478809268754810670087946897631086109773629655792603699059915488474694664
  post := [[.T 252592461065476274697297617982283077816063232948369510617060092383401536750486495353075925000]]

/-- parse_keyword_with_statements -/
def e138 : Entry where
  args := [some (.kws [.END])]
  pre := [.T 12855504354071922204335696738729300820177623950262342682411008, .N .Block ALL]
  follow := 302231454903657293676544
  post := [[.T 12855504354071922204335696738729300820177623950262342682412032]]

/-- parse_keyword_with_statements -/
def e139 : Entry where
  args := [some (.kws [.END])]
  pre := [.T 5444517870735015415413993718908291383296, .N .Block ALL]
  follow := 302231454903657293676544
  post := [[.T 5444517870735015415413993718908291384320]]

/-- parse_keyword_with_statements -/
def e140 : Entry where
  args := [some (.kws [.UNTIL])]
  pre := [.T 47890485652059026823698344598447161988085597568237568, .N .Block ALL]
  follow := 842498333348457493583344221469363458551160763204392890034487820288
  post := [[.T 47890485652059026823698344598447161988085597568238592]]

/-- parse_select_statement -/
def e141 : Entry where
  args := [some (.bool false), some (.bool true)]
  pre := [.T 4, .N .InQuery ALL, .T 8]
  follow := 8148143905337944345073782753637512644205873574663745002544561797417525199053346824733589504
  post := [[.T 8]]

/-- parse_with_connection_clause -/
def e142 : Entry where
  args := []
  pre := [.N .Connection ALL]
  follow := 260740604970814219042361910834693753435061383734079436643417847842526226143619324042060760064
  post := [[.T 24444431716013833035224799134085933214511338101922373520359910946738660790437621736310571008]]

/-- parse_cte -/
def e143 : Entry where
  args := []
  pre := [.N .Cte ALL, .T 64]
  follow := 24444431716013833035221607389709440909145710549390238663953313042748819551734042463597232128
  post := [[.T 64]]

/-- parse_cte -/
def e144 : Entry where
  args := []
  pre := [.N .Cte ALL]
  follow := 110427941548655297700691480477196243028641268133792344295395225791102980
  post := [[.T 8]]

/-- parse_grouped_exprs -/
def e145 : Entry where
  args := [some (.bool false)]
  pre := [.T 4, .T 8]
  follow := 513333066036290493740094597968912951404574650474615614227466453146532388252011409247208342780
  post := [[.T 8]]

/-- parse_grouped_exprs -/
def e146 : Entry where
  args := [some (.bool false)]
  pre := [.T 4, .N .ExprList ALL, .T 8]
  follow := 513333066036290493740502404337507045695104068480323736853203460444064826307332557089896595199
  post := [[.T 8]]

/-- parse_expr -/
def e147 : Entry where
  args := [some (.nat 4294967295), some (.bool true), some (.bool false), some (.bool false), some (.bool true)]
  pre := [.N .SelectItem ALL]
  follow := 260740604970814219042471907522408019713980811866040922571530097480027617193795042839321642056
  post := [[.T 252592461065476274697297617982283077816063232948369510617060092383401536750486495353075925016]]

/-- parse_select_statement -/
def e148 : Entry where
  args := [some (.bool false), some (.bool false)]
  pre := [.T 4, .N .InQuery ALL, .T 8]
  follow := 285185036686828052077582939472802696813385129704621204590630546743662052707329872504037573704
  post := [[.T 8]]

/-- parse_table -/
def e149 : Entry where
  args := [some (.bool true)]
  pre := [.N .TableExprN ALL]
  follow := 8
  post := [[.T ALL]]

/-- parse_expr -/
def e150 : Entry where
  args := [some (.nat 4294967295), some (.bool false), some (.bool false), some (.bool false), some (.bool true)]
  pre := [.T 210624583337114373395836055367340864637790190801098222508621955072, .T 4, .N .Expr ALL, .T 8]
  follow := 285185036686828052077694229711393921042184507888033139167690911715473445085475221833489843272
  post := [[.T 8]]

/-- parse_expr -/
def e151 : Entry where
  args := [some (.nat 4294967295), some (.bool false), some (.bool true), some (.bool false), some (.bool true)]
  pre := [.N .TableName ALL]
  follow := 285185036686828052077693367414351345833984085786999655456222085478364572393748680597328364616
  post := [[.T 24444431716013833035224799134085933214511338101922373520359910946738660790437621736310571008]]

/-- parse_expr -/
def e152 : Entry where
  args := [some (.nat 4294967295), some (.bool false), some (.bool true), some (.bool false), some (.bool true)]
  pre := [.N .TvfName ALL, .T 4, .N .TableArgsOpt ALL, .T 8]
  follow := 285185036686828052077693366993100572221711078543550354539509355326851923787155826517961868360
  post := [[.T 8]]

/-- parse_single_or_multi_token_identifier -/
def e153 : Entry where
  args := []
  pre := [.T 24444431716013833035224799134085933214511338101922373520359910946738660790437621736310571008]
  follow := 285185036686828052077694495580282349790862935200235171117043483796265556831008771994107774284
  post := [[.T 24444431716013833035224799134085933214511338101922373520359910946738660790437621736310571008]]

/-- parse_type -/
def e154 : Entry where
  args := [some (.bool false), some (.bool false)]
  pre := [.N .Type ALL, .N .ColumnCollateOpt ALL]
  follow := 325925756213517773802951310145500505768234942986549800101782472055157333580958358535137264712
  post := [[.T 89629582958717387795811869418809542062792699146700198684392884171825578386217305002733600776]]

/-- parse_exprs -/
def e155 : Entry where
  args := [some (.kws []), some (.bool true), some (.bool true)]
  pre := [.N .ExprList ALL]
  follow := 260740604970814219042471476057949053635186910483036272488665195260915532554589698779055653896
  post := [[.T 252592461065476274697297617982283077816063232948369510617060092383401536750486495353075925000]]

/-- parse_type -/
def e156 : Entry where
  args := [some (.bool false), some (.bool false)]
  pre := [.T 401734511064747568885490523085290650630550748445698208825344]
  follow := 4
  post := [[.T 401734511064747568885490523085290650630550748445698208825344]]

/-- parse_type -/
def e157 : Entry where
  args := [some (.bool false), some (.bool false)]
  pre := [.T 401734511064747568885490523085290650630550748445698208825344, .T 2048, .N .FieldList ALL, .T 131072]
  follow := 131140
  post := [[.T 131072]]

/-- parse_type -/
def e158 : Entry where
  args := [some (.bool false), some (.bool false)]
  pre := [.T 268435456, .T 2048, .N .Type ALL, .T 131072]
  follow := 3450873173395281893717377931138512726225554486085193277581262112030784
  post := [[.T 131072]]

/-- parse_type -/
def e159 : Entry where
  args := [some (.bool false), some (.bool false)]
  pre := [.T 268435456]
  follow := 3450873173395281893717377931138512726225554486085193277581262111899648
  post := [[.T 268435456]]

/-- parse_expr -/
def e160 : Entry where
  args := [some (.natB 112), some (.bool false), some (.bool false), some (.bool false), some (.bool true)]
  pre := [.N .Unary ALL, .N .Tail ALL, .N .OrdOpt ALL]
  follow := 285185036686828052077701185798897675416964469318718184224603654508668903972724891550599873608
  post := [[.T 252592461065476274697297617982283077816063232948369510617060092383401536750486495353075925000],
    [.T 252592461065476274697297617982283077816063232948369510617060092383401536750486495353075925000, .T 2787593149816327892691964784081045188247552, .T 649037107316853453566312041152512, .T 4, .N .ExprList ALL, .T 8, .N .Tail ALL, .N .OrdOpt ALL],
    [.T 252592461065476274697297617982283077816063232948369510617060092383401536750486495353075925000, .T 2787593149816327892691964784081045188247552, .T 649037107316853453566312041152512, .T 4, .N .InQueryE ALL, .T 8, .N .Tail ALL, .N .OrdOpt ALL],
    [.T 252592461065476274697297617982283077816063232948369510617060092383401536750486495353075925000, .T 2787593149816327892691964784081045188247552, .T 649037107316853453566312041152512, .T 210624583337114373395836055367340864637790190801098222508621955072, .T 4, .N .Expr ALL, .T 8, .N .Tail ALL, .N .OrdOpt ALL],
    [.T 252592461065476274697297617982283077816063232948369510617060092383401536750486495353075925000, .T 2787593149816327892691964784081045188247552, .T 137438953472, .N .Unary ALL, .N .TailB ALL, .T 67108864, .N .Unary ALL, .N .Tail ALL, .N .OrdOpt ALL],
    [.T 252592461065476274697297617982283077816063232948369510617060092383401536750486495353075925000, .T 2787593149816327892691964784081045188247552, .T 340282366920938463463374607431768211456, .N .Unary ALL, .N .Tail ALL, .N .OrdOpt ALL],
    [.T 252592461065476274697297617982283077816063232948369510617060092383401536750486495353075925000, .N .OpChunk 289873346565203679072259746929259255971249474352308505095699231977437875, .N .Tail ALL, .N .OrdOpt ALL],
    [.T 154814734201420942556412224938632926085592750052404570586525350814391234361846333456272850952, .N .PostStep ALL, .N .Post ALL, .N .Tail ALL, .N .OrdOpt ALL],
    [.T 268435456, .T 4, .N .InQueryE ALL, .T 8, .N .Post ALL, .N .Tail ALL, .N .OrdOpt ALL],
    [.T 24444431716013833035221607389709440909145710549390238663953313042748819551734042463597232128, .T 4, .N .CallArgs ALL, .T 8, .N .OverOpt ALL, .N .Post ALL, .N .Tail ALL, .N .OrdOpt ALL],
    [.T 784637716923335095479473677900958302012794712032981024768, .T 4, .N .Expr ALL, .T 536870912, .N .Type ALL, .N .CastFormatOpt ALL, .T 8, .N .Post ALL, .N .Tail ALL, .N .OrdOpt ALL],
    [.T 1237940039285380274899124224, .T 4, .N .Expr ALL, .T 316912650057057350374175801344, .N .Expr ALL, .N .AtTimeZoneOpt ALL, .T 8, .N .Post ALL, .N .Tail ALL, .N .OrdOpt ALL],
    [.T 77371252455336267181195264, .T 4, .N .InQueryE ALL, .T 8, .N .Tail ALL, .N .OrdOpt ALL],
    [.T 24519928653854221903874898154151007882950521248832028672, .T 4, .N .CallArgs ALL, .T 8, .N .Post ALL, .N .Tail ALL, .N .OrdOpt ALL]]

/-- parse_expr -/
def e161 : Entry where
  args := [some (.natB 112), some (.bool false), some (.bool false), some (.bool false), some (.bool true)]
  pre := [.T 1683649886205200161770644927289158038645867672502272, .T 65185151242703554760590262029100101153646988597309960020356494379340201592426774597868716032, .N .Tail ALL, .N .OrdOpt ALL]
  follow := 285185036686828052077701185798897675416964469318718184224603654508668903972724891550599873608
  post := [[.T 252592461065476274697297617982283077816063232948369510617060092383401536750486495353075925000],
    [.T 252592461065476274697297617982283077816063232948369510617060092383401536750486495353075925000, .T 2787593149816327892691964784081045188247552, .T 649037107316853453566312041152512, .T 4, .N .ExprList ALL, .T 8, .N .Tail ALL, .N .OrdOpt ALL],
    [.T 252592461065476274697297617982283077816063232948369510617060092383401536750486495353075925000, .T 2787593149816327892691964784081045188247552, .T 649037107316853453566312041152512, .T 4, .N .InQueryE ALL, .T 8, .N .Tail ALL, .N .OrdOpt ALL],
    [.T 252592461065476274697297617982283077816063232948369510617060092383401536750486495353075925000, .T 2787593149816327892691964784081045188247552, .T 649037107316853453566312041152512, .T 210624583337114373395836055367340864637790190801098222508621955072, .T 4, .N .Expr ALL, .T 8, .N .Tail ALL, .N .OrdOpt ALL],
    [.T 252592461065476274697297617982283077816063232948369510617060092383401536750486495353075925000, .T 2787593149816327892691964784081045188247552, .T 137438953472, .N .Unary ALL, .N .TailB ALL, .T 67108864, .N .Unary ALL, .N .Tail ALL, .N .OrdOpt ALL],
    [.T 252592461065476274697297617982283077816063232948369510617060092383401536750486495353075925000, .T 2787593149816327892691964784081045188247552, .T 340282366920938463463374607431768211456, .N .Unary ALL, .N .Tail ALL, .N .OrdOpt ALL],
    [.T 252592461065476274697297617982283077816063232948369510617060092383401536750486495353075925000, .N .OpChunk 289873346565203679072259746929259255971249474352308505095699231977437875, .N .Tail ALL, .N .OrdOpt ALL],
    [.T 154814734201420942556412224938632926085592750052404570586525350814391234361846333456272850952, .N .PostStep ALL, .N .Post ALL, .N .Tail ALL, .N .OrdOpt ALL],
    [.T 268435456, .T 4, .N .InQueryE ALL, .T 8, .N .Post ALL, .N .Tail ALL, .N .OrdOpt ALL],
    [.T 24444431716013833035221607389709440909145710549390238663953313042748819551734042463597232128, .T 4, .N .CallArgs ALL, .T 8, .N .OverOpt ALL, .N .Post ALL, .N .Tail ALL, .N .OrdOpt ALL],
    [.T 784637716923335095479473677900958302012794712032981024768, .T 4, .N .Expr ALL, .T 536870912, .N .Type ALL, .N .CastFormatOpt ALL, .T 8, .N .Post ALL, .N .Tail ALL, .N .OrdOpt ALL],
    [.T 1237940039285380274899124224, .T 4, .N .Expr ALL, .T 316912650057057350374175801344, .N .Expr ALL, .N .AtTimeZoneOpt ALL, .T 8, .N .Post ALL, .N .Tail ALL, .N .OrdOpt ALL],
    [.T 77371252455336267181195264, .T 4, .N .InQueryE ALL, .T 8, .N .Tail ALL, .N .OrdOpt ALL],
    [.T 24519928653854221903874898154151007882950521248832028672, .T 4, .N .CallArgs ALL, .T 8, .N .Post ALL, .N .Tail ALL, .N .OrdOpt ALL]]

/-- parse_expr -/
def e162 : Entry where
  args := [some (.natB 112), some (.bool false), some (.bool false), some (.bool false), some (.bool true)]
  pre := [.N .NotUnary ALL, .N .Tail ALL, .N .OrdOpt ALL]
  follow := 285185036686828052077701185798897675416964469318718184224603654508668903972724891550599873608
  post := [[.T 252592461065476274697297617982283077816063232948369510617060092383401536750486495353075925000],
    [.T 252592461065476274697297617982283077816063232948369510617060092383401536750486495353075925000, .T 2787593149816327892691964784081045188247552, .T 649037107316853453566312041152512, .T 4, .N .ExprList ALL, .T 8, .N .Tail ALL, .N .OrdOpt ALL],
    [.T 252592461065476274697297617982283077816063232948369510617060092383401536750486495353075925000, .T 2787593149816327892691964784081045188247552, .T 649037107316853453566312041152512, .T 4, .N .InQueryE ALL, .T 8, .N .Tail ALL, .N .OrdOpt ALL],
    [.T 252592461065476274697297617982283077816063232948369510617060092383401536750486495353075925000, .T 2787593149816327892691964784081045188247552, .T 649037107316853453566312041152512, .T 210624583337114373395836055367340864637790190801098222508621955072, .T 4, .N .Expr ALL, .T 8, .N .Tail ALL, .N .OrdOpt ALL],
    [.T 252592461065476274697297617982283077816063232948369510617060092383401536750486495353075925000, .T 2787593149816327892691964784081045188247552, .T 137438953472, .N .Unary ALL, .N .TailB ALL, .T 67108864, .N .Unary ALL, .N .Tail ALL, .N .OrdOpt ALL],
    [.T 252592461065476274697297617982283077816063232948369510617060092383401536750486495353075925000, .T 2787593149816327892691964784081045188247552, .T 340282366920938463463374607431768211456, .N .Unary ALL, .N .Tail ALL, .N .OrdOpt ALL],
    [.T 252592461065476274697297617982283077816063232948369510617060092383401536750486495353075925000, .N .OpChunk 289873346565203679072259746929259255971249474352308505095699231977437875, .N .Tail ALL, .N .OrdOpt ALL],
    [.T 154814734201420942556412224938632926085592750052404570586525350814391234361846333456272850952, .N .PostStep ALL, .N .Post ALL, .N .Tail ALL, .N .OrdOpt ALL],
    [.T 268435456, .T 4, .N .InQueryE ALL, .T 8, .N .Post ALL, .N .Tail ALL, .N .OrdOpt ALL],
    [.T 24444431716013833035221607389709440909145710549390238663953313042748819551734042463597232128, .T 4, .N .CallArgs ALL, .T 8, .N .OverOpt ALL, .N .Post ALL, .N .Tail ALL, .N .OrdOpt ALL],
    [.T 784637716923335095479473677900958302012794712032981024768, .T 4, .N .Expr ALL, .T 536870912, .N .Type ALL, .N .CastFormatOpt ALL, .T 8, .N .Post ALL, .N .Tail ALL, .N .OrdOpt ALL],
    [.T 1237940039285380274899124224, .T 4, .N .Expr ALL, .T 316912650057057350374175801344, .N .Expr ALL, .N .AtTimeZoneOpt ALL, .T 8, .N .Post ALL, .N .Tail ALL, .N .OrdOpt ALL],
    [.T 77371252455336267181195264, .T 4, .N .InQueryE ALL, .T 8, .N .Tail ALL, .N .OrdOpt ALL],
    [.T 24519928653854221903874898154151007882950521248832028672, .T 4, .N .CallArgs ALL, .T 8, .N .Post ALL, .N .Tail ALL, .N .OrdOpt ALL]]

/-- parse_exprs -/
def e163 : Entry where
  args := [some (.kws []), some (.bool false), some (.bool true)]
  pre := [.N .Args ALL]
  follow := 766247771860192802450272884702440521416558506036690952
  post := [[.T 252592461065476274697297617982283077816063232948369510617060092383401536750486495353075925000]]

/-- parse_exprs -/
def e164 : Entry where
  args := [some (.kws []), some (.bool false), some (.bool true)]
  pre := [.N .SelPipeN ALL]
  follow := 8
  post := [[.T ALL]]

/-- parse_exprs -/
def e165 : Entry where
  args := [some (.kws []), some (.bool false), some (.bool true)]
  pre := [.N .QueryN ALL]
  follow := 8
  post := [[.T ALL]]

/-- parse_exprs -/
def e166 : Entry where
  args := [some (.kws []), some (.bool false), some (.bool true)]
  pre := [.T 16]
  follow := 8
  post := [[.T 24]]

/-- parse_window_expr -/
def e167 : Entry where
  args := []
  pre := [.N .WindowSpec ALL]
  follow := 285185036686828052077994510018636274377930446455010501500697890225437049972981021232411377659
  post := [[.T 8],
    [.N .WindowSpec 24444431716013833035221348260912537932617620723991235007633685392252575597160040474200768512]]

/-- parse_expr -/
def e168 : Entry where
  args := [some (.nat 101), some (.bool false), some (.bool false), some (.bool true), some (.bool true)]
  pre := [.T 24444431716013833035224799134085933214511338101922373520359910946738660790437621736310571008, .N .Post ALL, .N .Tail ALL, .N .OrdOpt ALL]
  follow := 285185036686828052077701185798897675416964469318718184224603654508668903972724891550599873608
  post := [[.T 24444431716013833035224799134085933214511338101922373520359910946738660790437621736310571008],
    [.T 24444431716013833035224799134085933214511338101922373520359910946738660790437621736310571008, .T 2787593149816327892691964784081045188247552, .T 649037107316853453566312041152512, .T 4, .N .ExprList ALL, .T 8, .N .Tail ALL, .N .OrdOpt ALL],
    [.T 24444431716013833035224799134085933214511338101922373520359910946738660790437621736310571008, .T 2787593149816327892691964784081045188247552, .T 649037107316853453566312041152512, .T 4, .N .InQueryE ALL, .T 8, .N .Tail ALL, .N .OrdOpt ALL],
    [.T 24444431716013833035224799134085933214511338101922373520359910946738660790437621736310571008, .T 2787593149816327892691964784081045188247552, .T 649037107316853453566312041152512, .T 210624583337114373395836055367340864637790190801098222508621955072, .T 4, .N .Expr ALL, .T 8, .N .Tail ALL, .N .OrdOpt ALL],
    [.T 24444431716013833035224799134085933214511338101922373520359910946738660790437621736310571008, .T 2787593149816327892691964784081045188247552, .T 137438953472, .N .Unary ALL, .N .TailB ALL, .T 67108864, .N .Unary ALL, .N .Tail ALL, .N .OrdOpt ALL],
    [.T 24444431716013833035224799134085933214511338101922373520359910946738660790437621736310571008, .T 2787593149816327892691964784081045188247552, .T 340282366920938463463374607431768211456, .N .Unary ALL, .N .Tail ALL, .N .OrdOpt ALL],
    [.T 24444431716013833035224799134085933214511338101922373520359910946738660790437621736310571008, .N .OpChunk 289873346565203679072259746929259255971249474352308505095699231977437875, .N .Tail ALL, .N .OrdOpt ALL],
    [.T 24444431716013833035224799134085933214511338101922373520359910946738660790437621736310571008, .N .PostStep ALL, .N .Post ALL, .N .Tail ALL, .N .OrdOpt ALL]]

/-- parse_expr -/
def e169 : Entry where
  args := [some (.nat 101), some (.bool false), some (.bool false), some (.bool true), some (.bool true)]
  pre := [.T 24444431716013833035221348260912537932617620723991235007633685392252575597160040474200768512]
  follow := 4
  post := [[.T 24444431716013833035221348260912537932617620723991235007633685392252575597160040474200768512]]

/-- parse_binary_operator -/
def e170 : Entry where
  args := [none]
  pre := [.N .ArithOp ALL, .N .Unary ALL, .N .Tail ALL, .N .OrdOpt ALL]
  follow := 285185036686828052077701185798897675416964469318718184224603654508668903972724891550599873608
  post := [[.T 252592461065476274697297617982283077816063232948369510617060092383401536750486495353075925000],
    [.T 252592461065476274697297617982283077816063232948369510617060092383401536750486495353075925000, .T 2787593149816327892691964784081045188247552, .T 649037107316853453566312041152512, .T 4, .N .ExprList ALL, .T 8, .N .Tail ALL, .N .OrdOpt ALL],
    [.T 252592461065476274697297617982283077816063232948369510617060092383401536750486495353075925000, .T 2787593149816327892691964784081045188247552, .T 649037107316853453566312041152512, .T 4, .N .InQueryE ALL, .T 8, .N .Tail ALL, .N .OrdOpt ALL],
    [.T 252592461065476274697297617982283077816063232948369510617060092383401536750486495353075925000, .T 2787593149816327892691964784081045188247552, .T 649037107316853453566312041152512, .T 210624583337114373395836055367340864637790190801098222508621955072, .T 4, .N .Expr ALL, .T 8, .N .Tail ALL, .N .OrdOpt ALL],
    [.T 252592461065476274697297617982283077816063232948369510617060092383401536750486495353075925000, .T 2787593149816327892691964784081045188247552, .T 137438953472, .N .Unary ALL, .N .TailB ALL, .T 67108864, .N .Unary ALL, .N .Tail ALL, .N .OrdOpt ALL],
    [.T 252592461065476274697297617982283077816063232948369510617060092383401536750486495353075925000, .T 2787593149816327892691964784081045188247552, .T 340282366920938463463374607431768211456, .N .Unary ALL, .N .Tail ALL, .N .OrdOpt ALL],
    [.T 252592461065476274697297617982283077816063232948369510617060092383401536750486495353075925000, .N .OpChunk 289873346565203679072259746929259255971249474352308505095699231977437875, .N .Tail ALL, .N .OrdOpt ALL],
    [.T 154814734201420942556412224938632926085592750052404570586525350814391234361846333456272850952, .N .PostStep ALL, .N .Post ALL, .N .Tail ALL, .N .OrdOpt ALL],
    [.T 268435456, .T 4, .N .InQueryE ALL, .T 8, .N .Post ALL, .N .Tail ALL, .N .OrdOpt ALL],
    [.T 24444431716013833035221607389709440909145710549390238663953313042748819551734042463597232128, .T 4, .N .CallArgs ALL, .T 8, .N .OverOpt ALL, .N .Post ALL, .N .Tail ALL, .N .OrdOpt ALL],
    [.T 784637716923335095479473677900958302012794712032981024768, .T 4, .N .Expr ALL, .T 536870912, .N .Type ALL, .N .CastFormatOpt ALL, .T 8, .N .Post ALL, .N .Tail ALL, .N .OrdOpt ALL],
    [.T 1237940039285380274899124224, .T 4, .N .Expr ALL, .T 316912650057057350374175801344, .N .Expr ALL, .N .AtTimeZoneOpt ALL, .T 8, .N .Post ALL, .N .Tail ALL, .N .OrdOpt ALL],
    [.T 77371252455336267181195264, .T 4, .N .InQueryE ALL, .T 8, .N .Tail ALL, .N .OrdOpt ALL],
    [.T 24519928653854221903874898154151007882950521248832028672, .T 4, .N .CallArgs ALL, .T 8, .N .Post ALL, .N .Tail ALL, .N .OrdOpt ALL]]

/-- parse_binary_operator -/
def e171 : Entry where
  args := [none]
  pre := [.N .CompOp ALL, .N .Unary ALL, .N .Tail ALL, .N .OrdOpt ALL]
  follow := 285185036686828052077701185798897675416964469318718184224603654508668903972724891550599873608
  post := [[.T 252592461065476274697297617982283077816063232948369510617060092383401536750486495353075925000],
    [.T 252592461065476274697297617982283077816063232948369510617060092383401536750486495353075925000, .T 2787593149816327892691964784081045188247552, .T 649037107316853453566312041152512, .T 4, .N .ExprList ALL, .T 8, .N .Tail ALL, .N .OrdOpt ALL],
    [.T 252592461065476274697297617982283077816063232948369510617060092383401536750486495353075925000, .T 2787593149816327892691964784081045188247552, .T 649037107316853453566312041152512, .T 4, .N .InQueryE ALL, .T 8, .N .Tail ALL, .N .OrdOpt ALL],
    [.T 252592461065476274697297617982283077816063232948369510617060092383401536750486495353075925000, .T 2787593149816327892691964784081045188247552, .T 649037107316853453566312041152512, .T 210624583337114373395836055367340864637790190801098222508621955072, .T 4, .N .Expr ALL, .T 8, .N .Tail ALL, .N .OrdOpt ALL],
    [.T 252592461065476274697297617982283077816063232948369510617060092383401536750486495353075925000, .T 2787593149816327892691964784081045188247552, .T 137438953472, .N .Unary ALL, .N .TailB ALL, .T 67108864, .N .Unary ALL, .N .Tail ALL, .N .OrdOpt ALL],
    [.T 252592461065476274697297617982283077816063232948369510617060092383401536750486495353075925000, .T 2787593149816327892691964784081045188247552, .T 340282366920938463463374607431768211456, .N .Unary ALL, .N .Tail ALL, .N .OrdOpt ALL],
    [.T 252592461065476274697297617982283077816063232948369510617060092383401536750486495353075925000, .N .OpChunk 289873346565203679072259746929259255971249474352308505095699231977437875, .N .Tail ALL, .N .OrdOpt ALL],
    [.T 154814734201420942556412224938632926085592750052404570586525350814391234361846333456272850952, .N .PostStep ALL, .N .Post ALL, .N .Tail ALL, .N .OrdOpt ALL],
    [.T 268435456, .T 4, .N .InQueryE ALL, .T 8, .N .Post ALL, .N .Tail ALL, .N .OrdOpt ALL],
    [.T 24444431716013833035221607389709440909145710549390238663953313042748819551734042463597232128, .T 4, .N .CallArgs ALL, .T 8, .N .OverOpt ALL, .N .Post ALL, .N .Tail ALL, .N .OrdOpt ALL],
    [.T 784637716923335095479473677900958302012794712032981024768, .T 4, .N .Expr ALL, .T 536870912, .N .Type ALL, .N .CastFormatOpt ALL, .T 8, .N .Post ALL, .N .Tail ALL, .N .OrdOpt ALL],
    [.T 1237940039285380274899124224, .T 4, .N .Expr ALL, .T 316912650057057350374175801344, .N .Expr ALL, .N .AtTimeZoneOpt ALL, .T 8, .N .Post ALL, .N .Tail ALL, .N .OrdOpt ALL],
    [.T 77371252455336267181195264, .T 4, .N .InQueryE ALL, .T 8, .N .Tail ALL, .N .OrdOpt ALL],
    [.T 24519928653854221903874898154151007882950521248832028672, .T 4, .N .CallArgs ALL, .T 8, .N .Post ALL, .N .Tail ALL, .N .OrdOpt ALL]]

/-- parse_binary_operator -/
def e172 : Entry where
  args := [none]
  pre := [.T 340282366920938463463374607431768211456, .N .Unary ALL, .N .Tail ALL, .N .OrdOpt ALL]
  follow := 285185036686828052077701185798897675416964469318718184224603654508668903972724891550599873608
  post := [[.T 252592461065476274697297617982283077816063232948369510617060092383401536750486495353075925000],
    [.T 252592461065476274697297617982283077816063232948369510617060092383401536750486495353075925000, .T 2787593149816327892691964784081045188247552, .T 649037107316853453566312041152512, .T 4, .N .ExprList ALL, .T 8, .N .Tail ALL, .N .OrdOpt ALL],
    [.T 252592461065476274697297617982283077816063232948369510617060092383401536750486495353075925000, .T 2787593149816327892691964784081045188247552, .T 649037107316853453566312041152512, .T 4, .N .InQueryE ALL, .T 8, .N .Tail ALL, .N .OrdOpt ALL],
    [.T 252592461065476274697297617982283077816063232948369510617060092383401536750486495353075925000, .T 2787593149816327892691964784081045188247552, .T 649037107316853453566312041152512, .T 210624583337114373395836055367340864637790190801098222508621955072, .T 4, .N .Expr ALL, .T 8, .N .Tail ALL, .N .OrdOpt ALL],
    [.T 252592461065476274697297617982283077816063232948369510617060092383401536750486495353075925000, .T 2787593149816327892691964784081045188247552, .T 137438953472, .N .Unary ALL, .N .TailB ALL, .T 67108864, .N .Unary ALL, .N .Tail ALL, .N .OrdOpt ALL],
    [.T 252592461065476274697297617982283077816063232948369510617060092383401536750486495353075925000, .T 2787593149816327892691964784081045188247552, .T 340282366920938463463374607431768211456, .N .Unary ALL, .N .Tail ALL, .N .OrdOpt ALL],
    [.T 252592461065476274697297617982283077816063232948369510617060092383401536750486495353075925000, .N .OpChunk 289873346565203679072259746929259255971249474352308505095699231977437875, .N .Tail ALL, .N .OrdOpt ALL],
    [.T 154814734201420942556412224938632926085592750052404570586525350814391234361846333456272850952, .N .PostStep ALL, .N .Post ALL, .N .Tail ALL, .N .OrdOpt ALL],
    [.T 268435456, .T 4, .N .InQueryE ALL, .T 8, .N .Post ALL, .N .Tail ALL, .N .OrdOpt ALL],
    [.T 24444431716013833035221607389709440909145710549390238663953313042748819551734042463597232128, .T 4, .N .CallArgs ALL, .T 8, .N .OverOpt ALL, .N .Post ALL, .N .Tail ALL, .N .OrdOpt ALL],
    [.T 784637716923335095479473677900958302012794712032981024768, .T 4, .N .Expr ALL, .T 536870912, .N .Type ALL, .N .CastFormatOpt ALL, .T 8, .N .Post ALL, .N .Tail ALL, .N .OrdOpt ALL],
    [.T 1237940039285380274899124224, .T 4, .N .Expr ALL, .T 316912650057057350374175801344, .N .Expr ALL, .N .AtTimeZoneOpt ALL, .T 8, .N .Post ALL, .N .Tail ALL, .N .OrdOpt ALL],
    [.T 77371252455336267181195264, .T 4, .N .InQueryE ALL, .T 8, .N .Tail ALL, .N .OrdOpt ALL],
    [.T 24519928653854221903874898154151007882950521248832028672, .T 4, .N .CallArgs ALL, .T 8, .N .Post ALL, .N .Tail ALL, .N .OrdOpt ALL]]

/-- parse_binary_operator -/
def e173 : Entry where
  args := [none]
  pre := [.N .LogicOp ALL, .N .NotUnary ALL, .N .Tail ALL, .N .OrdOpt ALL]
  follow := 285185036686828052077701185798897675416964469318718184224603654508668903972724891550599873608
  post := [[.T 252592461065476274697297617982283077816063232948369510617060092383401536750486495353075925000],
    [.T 252592461065476274697297617982283077816063232948369510617060092383401536750486495353075925000, .T 2787593149816327892691964784081045188247552, .T 649037107316853453566312041152512, .T 4, .N .ExprList ALL, .T 8, .N .Tail ALL, .N .OrdOpt ALL],
    [.T 252592461065476274697297617982283077816063232948369510617060092383401536750486495353075925000, .T 2787593149816327892691964784081045188247552, .T 649037107316853453566312041152512, .T 4, .N .InQueryE ALL, .T 8, .N .Tail ALL, .N .OrdOpt ALL],
    [.T 252592461065476274697297617982283077816063232948369510617060092383401536750486495353075925000, .T 2787593149816327892691964784081045188247552, .T 649037107316853453566312041152512, .T 210624583337114373395836055367340864637790190801098222508621955072, .T 4, .N .Expr ALL, .T 8, .N .Tail ALL, .N .OrdOpt ALL],
    [.T 252592461065476274697297617982283077816063232948369510617060092383401536750486495353075925000, .T 2787593149816327892691964784081045188247552, .T 137438953472, .N .Unary ALL, .N .TailB ALL, .T 67108864, .N .Unary ALL, .N .Tail ALL, .N .OrdOpt ALL],
    [.T 252592461065476274697297617982283077816063232948369510617060092383401536750486495353075925000, .T 2787593149816327892691964784081045188247552, .T 340282366920938463463374607431768211456, .N .Unary ALL, .N .Tail ALL, .N .OrdOpt ALL],
    [.T 252592461065476274697297617982283077816063232948369510617060092383401536750486495353075925000, .N .OpChunk 289873346565203679072259746929259255971249474352308505095699231977437875, .N .Tail ALL, .N .OrdOpt ALL],
    [.T 154814734201420942556412224938632926085592750052404570586525350814391234361846333456272850952, .N .PostStep ALL, .N .Post ALL, .N .Tail ALL, .N .OrdOpt ALL],
    [.T 268435456, .T 4, .N .InQueryE ALL, .T 8, .N .Post ALL, .N .Tail ALL, .N .OrdOpt ALL],
    [.T 24444431716013833035221607389709440909145710549390238663953313042748819551734042463597232128, .T 4, .N .CallArgs ALL, .T 8, .N .OverOpt ALL, .N .Post ALL, .N .Tail ALL, .N .OrdOpt ALL],
    [.T 784637716923335095479473677900958302012794712032981024768, .T 4, .N .Expr ALL, .T 536870912, .N .Type ALL, .N .CastFormatOpt ALL, .T 8, .N .Post ALL, .N .Tail ALL, .N .OrdOpt ALL],
    [.T 1237940039285380274899124224, .T 4, .N .Expr ALL, .T 316912650057057350374175801344, .N .Expr ALL, .N .AtTimeZoneOpt ALL, .T 8, .N .Post ALL, .N .Tail ALL, .N .OrdOpt ALL],
    [.T 77371252455336267181195264, .T 4, .N .InQueryE ALL, .T 8, .N .Tail ALL, .N .OrdOpt ALL],
    [.T 24519928653854221903874898154151007882950521248832028672, .T 4, .N .CallArgs ALL, .T 8, .N .Post ALL, .N .Tail ALL, .N .OrdOpt ALL]]

/-- parse_is_distinct_from_operator -/
def e174 : Entry where
  args := [none]
  pre := [.T 332306998946228968225951765070086144, .N .NotOpt ALL, .T 18889465931478580854784, .T 316912650057057350374175801344, .N .Unary ALL, .N .Tail ALL, .N .OrdOpt ALL]
  follow := 285185036686828052077701185798897675416964469318718184224603654508668903972724891550599873608
  post := [[.T 252592461065476274697297617982283077816063232948369510617060092383401536750486495353075925000],
    [.T 252592461065476274697297617982283077816063232948369510617060092383401536750486495353075925000, .T 2787593149816327892691964784081045188247552, .T 649037107316853453566312041152512, .T 4, .N .ExprList ALL, .T 8, .N .Tail ALL, .N .OrdOpt ALL],
    [.T 252592461065476274697297617982283077816063232948369510617060092383401536750486495353075925000, .T 2787593149816327892691964784081045188247552, .T 649037107316853453566312041152512, .T 4, .N .InQueryE ALL, .T 8, .N .Tail ALL, .N .OrdOpt ALL],
    [.T 252592461065476274697297617982283077816063232948369510617060092383401536750486495353075925000, .T 2787593149816327892691964784081045188247552, .T 649037107316853453566312041152512, .T 210624583337114373395836055367340864637790190801098222508621955072, .T 4, .N .Expr ALL, .T 8, .N .Tail ALL, .N .OrdOpt ALL],
    [.T 252592461065476274697297617982283077816063232948369510617060092383401536750486495353075925000, .T 2787593149816327892691964784081045188247552, .T 137438953472, .N .Unary ALL, .N .TailB ALL, .T 67108864, .N .Unary ALL, .N .Tail ALL, .N .OrdOpt ALL],
    [.T 252592461065476274697297617982283077816063232948369510617060092383401536750486495353075925000, .T 2787593149816327892691964784081045188247552, .T 340282366920938463463374607431768211456, .N .Unary ALL, .N .Tail ALL, .N .OrdOpt ALL],
    [.T 252592461065476274697297617982283077816063232948369510617060092383401536750486495353075925000, .N .OpChunk 289873346565203679072259746929259255971249474352308505095699231977437875, .N .Tail ALL, .N .OrdOpt ALL],
    [.T 154814734201420942556412224938632926085592750052404570586525350814391234361846333456272850952, .N .PostStep ALL, .N .Post ALL, .N .Tail ALL, .N .OrdOpt ALL],
    [.T 268435456, .T 4, .N .InQueryE ALL, .T 8, .N .Post ALL, .N .Tail ALL, .N .OrdOpt ALL],
    [.T 24444431716013833035221607389709440909145710549390238663953313042748819551734042463597232128, .T 4, .N .CallArgs ALL, .T 8, .N .OverOpt ALL, .N .Post ALL, .N .Tail ALL, .N .OrdOpt ALL],
    [.T 784637716923335095479473677900958302012794712032981024768, .T 4, .N .Expr ALL, .T 536870912, .N .Type ALL, .N .CastFormatOpt ALL, .T 8, .N .Post ALL, .N .Tail ALL, .N .OrdOpt ALL],
    [.T 1237940039285380274899124224, .T 4, .N .Expr ALL, .T 316912650057057350374175801344, .N .Expr ALL, .N .AtTimeZoneOpt ALL, .T 8, .N .Post ALL, .N .Tail ALL, .N .OrdOpt ALL],
    [.T 77371252455336267181195264, .T 4, .N .InQueryE ALL, .T 8, .N .Tail ALL, .N .OrdOpt ALL],
    [.T 24519928653854221903874898154151007882950521248832028672, .T 4, .N .CallArgs ALL, .T 8, .N .Post ALL, .N .Tail ALL, .N .OrdOpt ALL]]

/-- parse_binary_operator -/
def e175 : Entry where
  args := [none]
  pre := [.T 332306998946228968225951765070086144, .N .NotOpt ALL, .N .IsWhat ALL, .N .Tail ALL, .N .OrdOpt ALL]
  follow := 285185036686828052077701185798897675416964469318718184224603654508668903972724891550599873608
  post := [[.T 252592461065476274697297617982283077816063232948369510617060092383401536750486495353075925000],
    [.T 252592461065476274697297617982283077816063232948369510617060092383401536750486495353075925000, .T 2787593149816327892691964784081045188247552, .T 649037107316853453566312041152512, .T 4, .N .ExprList ALL, .T 8, .N .Tail ALL, .N .OrdOpt ALL],
    [.T 252592461065476274697297617982283077816063232948369510617060092383401536750486495353075925000, .T 2787593149816327892691964784081045188247552, .T 649037107316853453566312041152512, .T 4, .N .InQueryE ALL, .T 8, .N .Tail ALL, .N .OrdOpt ALL],
    [.T 252592461065476274697297617982283077816063232948369510617060092383401536750486495353075925000, .T 2787593149816327892691964784081045188247552, .T 649037107316853453566312041152512, .T 210624583337114373395836055367340864637790190801098222508621955072, .T 4, .N .Expr ALL, .T 8, .N .Tail ALL, .N .OrdOpt ALL],
    [.T 252592461065476274697297617982283077816063232948369510617060092383401536750486495353075925000, .T 2787593149816327892691964784081045188247552, .T 137438953472, .N .Unary ALL, .N .TailB ALL, .T 67108864, .N .Unary ALL, .N .Tail ALL, .N .OrdOpt ALL],
    [.T 252592461065476274697297617982283077816063232948369510617060092383401536750486495353075925000, .T 2787593149816327892691964784081045188247552, .T 340282366920938463463374607431768211456, .N .Unary ALL, .N .Tail ALL, .N .OrdOpt ALL],
    [.T 252592461065476274697297617982283077816063232948369510617060092383401536750486495353075925000, .N .OpChunk 289873346565203679072259746929259255971249474352308505095699231977437875, .N .Tail ALL, .N .OrdOpt ALL],
    [.T 154814734201420942556412224938632926085592750052404570586525350814391234361846333456272850952, .N .PostStep ALL, .N .Post ALL, .N .Tail ALL, .N .OrdOpt ALL],
    [.T 268435456, .T 4, .N .InQueryE ALL, .T 8, .N .Post ALL, .N .Tail ALL, .N .OrdOpt ALL],
    [.T 24444431716013833035221607389709440909145710549390238663953313042748819551734042463597232128, .T 4, .N .CallArgs ALL, .T 8, .N .OverOpt ALL, .N .Post ALL, .N .Tail ALL, .N .OrdOpt ALL],
    [.T 784637716923335095479473677900958302012794712032981024768, .T 4, .N .Expr ALL, .T 536870912, .N .Type ALL, .N .CastFormatOpt ALL, .T 8, .N .Post ALL, .N .Tail ALL, .N .OrdOpt ALL],
    [.T 1237940039285380274899124224, .T 4, .N .Expr ALL, .T 316912650057057350374175801344, .N .Expr ALL, .N .AtTimeZoneOpt ALL, .T 8, .N .Post ALL, .N .Tail ALL, .N .OrdOpt ALL],
    [.T 77371252455336267181195264, .T 4, .N .InQueryE ALL, .T 8, .N .Tail ALL, .N .OrdOpt ALL],
    [.T 24519928653854221903874898154151007882950521248832028672, .T 4, .N .CallArgs ALL, .T 8, .N .Post ALL, .N .Tail ALL, .N .OrdOpt ALL]]

/-- parse_between_operator -/
def e176 : Entry where
  args := [none]
  pre := [.T 137438953472, .N .Unary ALL, .N .TailB ALL, .T 67108864, .N .Unary ALL, .N .Tail ALL, .N .OrdOpt ALL]
  follow := 285185036686828052077701185798897675416964469318718184224603654508668903972724891550599873608
  post := [[.T 252592461065476274697297617982283077816063232948369510617060092383401536750486495353075925000],
    [.T 252592461065476274697297617982283077816063232948369510617060092383401536750486495353075925000, .T 2787593149816327892691964784081045188247552, .T 649037107316853453566312041152512, .T 4, .N .ExprList ALL, .T 8, .N .Tail ALL, .N .OrdOpt ALL],
    [.T 252592461065476274697297617982283077816063232948369510617060092383401536750486495353075925000, .T 2787593149816327892691964784081045188247552, .T 649037107316853453566312041152512, .T 4, .N .InQueryE ALL, .T 8, .N .Tail ALL, .N .OrdOpt ALL],
    [.T 252592461065476274697297617982283077816063232948369510617060092383401536750486495353075925000, .T 2787593149816327892691964784081045188247552, .T 649037107316853453566312041152512, .T 210624583337114373395836055367340864637790190801098222508621955072, .T 4, .N .Expr ALL, .T 8, .N .Tail ALL, .N .OrdOpt ALL],
    [.T 252592461065476274697297617982283077816063232948369510617060092383401536750486495353075925000, .T 2787593149816327892691964784081045188247552, .T 137438953472, .N .Unary ALL, .N .TailB ALL, .T 67108864, .N .Unary ALL, .N .Tail ALL, .N .OrdOpt ALL],
    [.T 252592461065476274697297617982283077816063232948369510617060092383401536750486495353075925000, .T 2787593149816327892691964784081045188247552, .T 340282366920938463463374607431768211456, .N .Unary ALL, .N .Tail ALL, .N .OrdOpt ALL],
    [.T 252592461065476274697297617982283077816063232948369510617060092383401536750486495353075925000, .N .OpChunk 289873346565203679072259746929259255971249474352308505095699231977437875, .N .Tail ALL, .N .OrdOpt ALL],
    [.T 154814734201420942556412224938632926085592750052404570586525350814391234361846333456272850952, .N .PostStep ALL, .N .Post ALL, .N .Tail ALL, .N .OrdOpt ALL],
    [.T 268435456, .T 4, .N .InQueryE ALL, .T 8, .N .Post ALL, .N .Tail ALL, .N .OrdOpt ALL],
    [.T 24444431716013833035221607389709440909145710549390238663953313042748819551734042463597232128, .T 4, .N .CallArgs ALL, .T 8, .N .OverOpt ALL, .N .Post ALL, .N .Tail ALL, .N .OrdOpt ALL],
    [.T 784637716923335095479473677900958302012794712032981024768, .T 4, .N .Expr ALL, .T 536870912, .N .Type ALL, .N .CastFormatOpt ALL, .T 8, .N .Post ALL, .N .Tail ALL, .N .OrdOpt ALL],
    [.T 1237940039285380274899124224, .T 4, .N .Expr ALL, .T 316912650057057350374175801344, .N .Expr ALL, .N .AtTimeZoneOpt ALL, .T 8, .N .Post ALL, .N .Tail ALL, .N .OrdOpt ALL],
    [.T 77371252455336267181195264, .T 4, .N .InQueryE ALL, .T 8, .N .Tail ALL, .N .OrdOpt ALL],
    [.T 24519928653854221903874898154151007882950521248832028672, .T 4, .N .CallArgs ALL, .T 8, .N .Post ALL, .N .Tail ALL, .N .OrdOpt ALL]]

/-- parse_in_operator -/
def e177 : Entry where
  args := [none]
  pre := [.T 649037107316853453566312041152512, .T 4, .N .ExprList ALL, .T 8]
  follow := 285185036686828052077991059145462879096036729077079362987971664670950964779703439970299477755
  post := [[.T 8]]

/-- parse_in_operator -/
def e178 : Entry where
  args := [none]
  pre := [.T 649037107316853453566312041152512, .T 4, .N .InQueryE ALL, .T 8]
  follow := 285185036686828052077991059145462879096036729077079362987971664670950964779703439970299477755
  post := [[.T 8]]

/-- parse_in_operator -/
def e179 : Entry where
  args := [none]
  pre := [.T 649037107316853453566312041152512, .T 210624583337114373395836055367340864637790190801098222508621955072, .T 4, .N .Expr ALL, .T 8, .N .Tail ALL, .N .OrdOpt ALL]
  follow := 285185036686828052077701185798897675416964469318718184224603654508668903972724891550599873608
  post := [[.T 21267647942462179003110438034397462536],
    [.T 8, .T 2787593149816327892691964784081045188247552, .T 649037107316853453566312041152512, .T 4, .N .ExprList ALL, .T 8, .N .Tail ALL, .N .OrdOpt ALL],
    [.T 8, .T 2787593149816327892691964784081045188247552, .T 649037107316853453566312041152512, .T 4, .N .InQueryE ALL, .T 8, .N .Tail ALL, .N .OrdOpt ALL],
    [.T 8, .T 2787593149816327892691964784081045188247552, .T 649037107316853453566312041152512, .T 210624583337114373395836055367340864637790190801098222508621955072, .T 4, .N .Expr ALL, .T 8, .N .Tail ALL, .N .OrdOpt ALL],
    [.T 8, .T 2787593149816327892691964784081045188247552, .T 137438953472, .N .Unary ALL, .N .TailB ALL, .T 67108864, .N .Unary ALL, .N .Tail ALL, .N .OrdOpt ALL],
    [.T 8, .T 2787593149816327892691964784081045188247552, .T 340282366920938463463374607431768211456, .N .Unary ALL, .N .Tail ALL, .N .OrdOpt ALL],
    [.T 8, .N .OpChunk 289873346565203679072259746929259255971249474352308505095699231977437875, .N .Tail ALL, .N .OrdOpt ALL]]

/-- parse_exprs -/
def e180 : Entry where
  args := [some (.kws []), some (.bool true), some (.bool true)]
  pre := [.N .AliasedList ALL]
  follow := 260740604970814219042471476057949053635186910483036272488665195300529613811721867575827629064
  post := [[.T 252592461065476274697297617982283077816063232948369510617060092383401536750486495353075925000]]

/-- parse_keyword_with_statements -/
def e181 : Entry where
  args := [some (.kws [.ELSEIF, .ELSE, .END])]
  pre := [.T 12855504354071922204335696738729300820177623950262342682411008, .N .Block ALL]
  follow := 528905046081400263933952
  post := [[.T 12855504354071922204335696738729300820177623950262342682412032]]

/-- parse_n_keywords -/
def e182 : Entry where
  args := [some (.nat 2)]
  pre := [.T 302231454903657293676544, .T 140737488355328]
  follow := 260740604970814219042361048116400404614587954389239840081425977517360806369707098391474865152
  post := [[.T 140737488355328]]

/-- parse_keyword_with_statements -/
def e183 : Entry where
  args := [some (.kws [.END])]
  pre := [.T 8148143905337944345073782753637512644205873574663745002544561797417525199053346824733589504, .N .Block ALL]
  follow := 302231454903657293676544
  post := [[.T 8148143905337944345073782753637512644205873574663745002544561797417525199053346824733590528]]

/-- parse_n_keywords -/
def e184 : Entry where
  args := [some (.nat 2)]
  pre := [.T 302231454903657293676544, .T 47890485652059026823698344598447161988085597568237568]
  follow := 260740604970814219042361048116400404614587954389239840081425977517360806369707098391474865152
  post := [[.T 47890485652059026823698344598447161988085597568237568]]

/-- parse_statement -/
def e185 : Entry where
  args := [some (.bool false)]
  pre := [.N .Query ALL]
  follow := 260740604970814219042361048116400404614587954389239840081425977517360806369707098391474865152
  post := [[.T ALL]]

/-- parse_statement -/
def e186 : Entry where
  args := [some (.bool false)]
  pre := [.N .SelPipe ALL]
  follow := 260740604970814219042361048116400404614587954389239840081425977517360806369707098391474864128
  post := [[.T ALL]]

/-- parse_statement -/
def e187 : Entry where
  args := [some (.bool false)]
  pre := [.N .SelPipe ALL, .T 1024]
  follow := 260740604970814219042362183020893607946113512177965983186148277607400749266756941614533312516
  post := [[.T 1024]]

/-- parse_exprs -/
def e188 : Entry where
  args := [some (.kws [.sym_rparen]), some (.bool false), some (.bool true)]
  pre := [.N .ExprList ALL]
  follow := 8
  post := [[.T 252592461065476274697297617982283077816063232948369510617060092383401536750486495353075925000]]

/-- parse_grouped_exprs -/
def e189 : Entry where
  args := [some (.bool true)]
  pre := [.T 4, .N .AliasedList ALL, .T 8]
  follow := 260740604970814219042471907522408019713980811866040922571530097480027617193795042839321642056
  post := [[.T 8]]

/-- parse_expr -/
def e190 : Entry where
  args := [some (.natB 112), some (.bool false), some (.bool false), some (.bool false), some (.bool true)]
  pre := [.N .Unary ALL, .N .Tail ALL]
  follow := 285185036686828052077693255783320557646598432590567375463928522937893532199548418773787608136
  post := [[.T 252592461065476274697297617982283077816063232948369510617060092383401536750486495353075925000],
    [.T 252592461065476274697297617982283077816063232948369510617060092383401536750486495353075925000, .T 2787593149816327892691964784081045188247552, .T 649037107316853453566312041152512, .T 4, .N .ExprList ALL, .T 8, .N .Tail ALL],
    [.T 252592461065476274697297617982283077816063232948369510617060092383401536750486495353075925000, .T 2787593149816327892691964784081045188247552, .T 649037107316853453566312041152512, .T 4, .N .InQueryE ALL, .T 8, .N .Tail ALL],
    [.T 252592461065476274697297617982283077816063232948369510617060092383401536750486495353075925000, .T 2787593149816327892691964784081045188247552, .T 649037107316853453566312041152512, .T 210624583337114373395836055367340864637790190801098222508621955072, .T 4, .N .Expr ALL, .T 8, .N .Tail ALL],
    [.T 252592461065476274697297617982283077816063232948369510617060092383401536750486495353075925000, .T 2787593149816327892691964784081045188247552, .T 137438953472, .N .Unary ALL, .N .TailB ALL, .T 67108864, .N .Unary ALL, .N .Tail ALL],
    [.T 252592461065476274697297617982283077816063232948369510617060092383401536750486495353075925000, .T 2787593149816327892691964784081045188247552, .T 340282366920938463463374607431768211456, .N .Unary ALL, .N .Tail ALL],
    [.T 252592461065476274697297617982283077816063232948369510617060092383401536750486495353075925000, .N .OpChunk 289873346565203679072259746929259255971249474352308505095699231977437875, .N .Tail ALL],
    [.T 154814734201420942556412224938632926085592750052404570586525350814391234361846333456272850952, .N .PostStep ALL, .N .Post ALL, .N .Tail ALL],
    [.T 268435456, .T 4, .N .InQueryE ALL, .T 8, .N .Post ALL, .N .Tail ALL],
    [.T 24444431716013833035221607389709440909145710549390238663953313042748819551734042463597232128, .T 4, .N .CallArgs ALL, .T 8, .N .OverOpt ALL, .N .Post ALL, .N .Tail ALL],
    [.T 784637716923335095479473677900958302012794712032981024768, .T 4, .N .Expr ALL, .T 536870912, .N .Type ALL, .N .CastFormatOpt ALL, .T 8, .N .Post ALL, .N .Tail ALL],
    [.T 1237940039285380274899124224, .T 4, .N .Expr ALL, .T 316912650057057350374175801344, .N .Expr ALL, .N .AtTimeZoneOpt ALL, .T 8, .N .Post ALL, .N .Tail ALL],
    [.T 77371252455336267181195264, .T 4, .N .InQueryE ALL, .T 8, .N .Tail ALL],
    [.T 24519928653854221903874898154151007882950521248832028672, .T 4, .N .CallArgs ALL, .T 8, .N .Post ALL, .N .Tail ALL]]

/-- parse_expr -/
def e191 : Entry where
  args := [some (.natB 112), some (.bool false), some (.bool false), some (.bool false), some (.bool true)]
  pre := [.T 1683649886205200161770644927289158038645867672502272, .T 65185151242703554760590262029100101153646988597309960020356494379340201592426774597868716032, .N .Tail ALL]
  follow := 285185036686828052077693255783320557646598432590567375463928522937893532199548418773787608136
  post := [[.T 252592461065476274697297617982283077816063232948369510617060092383401536750486495353075925000],
    [.T 252592461065476274697297617982283077816063232948369510617060092383401536750486495353075925000, .T 2787593149816327892691964784081045188247552, .T 649037107316853453566312041152512, .T 4, .N .ExprList ALL, .T 8, .N .Tail ALL],
    [.T 252592461065476274697297617982283077816063232948369510617060092383401536750486495353075925000, .T 2787593149816327892691964784081045188247552, .T 649037107316853453566312041152512, .T 4, .N .InQueryE ALL, .T 8, .N .Tail ALL],
    [.T 252592461065476274697297617982283077816063232948369510617060092383401536750486495353075925000, .T 2787593149816327892691964784081045188247552, .T 649037107316853453566312041152512, .T 210624583337114373395836055367340864637790190801098222508621955072, .T 4, .N .Expr ALL, .T 8, .N .Tail ALL],
    [.T 252592461065476274697297617982283077816063232948369510617060092383401536750486495353075925000, .T 2787593149816327892691964784081045188247552, .T 137438953472, .N .Unary ALL, .N .TailB ALL, .T 67108864, .N .Unary ALL, .N .Tail ALL],
    [.T 252592461065476274697297617982283077816063232948369510617060092383401536750486495353075925000, .T 2787593149816327892691964784081045188247552, .T 340282366920938463463374607431768211456, .N .Unary ALL, .N .Tail ALL],
    [.T 252592461065476274697297617982283077816063232948369510617060092383401536750486495353075925000, .N .OpChunk 289873346565203679072259746929259255971249474352308505095699231977437875, .N .Tail ALL],
    [.T 154814734201420942556412224938632926085592750052404570586525350814391234361846333456272850952, .N .PostStep ALL, .N .Post ALL, .N .Tail ALL],
    [.T 268435456, .T 4, .N .InQueryE ALL, .T 8, .N .Post ALL, .N .Tail ALL],
    [.T 24444431716013833035221607389709440909145710549390238663953313042748819551734042463597232128, .T 4, .N .CallArgs ALL, .T 8, .N .OverOpt ALL, .N .Post ALL, .N .Tail ALL],
    [.T 784637716923335095479473677900958302012794712032981024768, .T 4, .N .Expr ALL, .T 536870912, .N .Type ALL, .N .CastFormatOpt ALL, .T 8, .N .Post ALL, .N .Tail ALL],
    [.T 1237940039285380274899124224, .T 4, .N .Expr ALL, .T 316912650057057350374175801344, .N .Expr ALL, .N .AtTimeZoneOpt ALL, .T 8, .N .Post ALL, .N .Tail ALL],
    [.T 77371252455336267181195264, .T 4, .N .InQueryE ALL, .T 8, .N .Tail ALL],
    [.T 24519928653854221903874898154151007882950521248832028672, .T 4, .N .CallArgs ALL, .T 8, .N .Post ALL, .N .Tail ALL]]

/-- parse_expr -/
def e192 : Entry where
  args := [some (.natB 112), some (.bool false), some (.bool false), some (.bool false), some (.bool true)]
  pre := [.N .NotUnary ALL, .N .Tail ALL]
  follow := 285185036686828052077693255783320557646598432590567375463928522937893532199548418773787608136
  post := [[.T 252592461065476274697297617982283077816063232948369510617060092383401536750486495353075925000],
    [.T 252592461065476274697297617982283077816063232948369510617060092383401536750486495353075925000, .T 2787593149816327892691964784081045188247552, .T 649037107316853453566312041152512, .T 4, .N .ExprList ALL, .T 8, .N .Tail ALL],
    [.T 252592461065476274697297617982283077816063232948369510617060092383401536750486495353075925000, .T 2787593149816327892691964784081045188247552, .T 649037107316853453566312041152512, .T 4, .N .InQueryE ALL, .T 8, .N .Tail ALL],
    [.T 252592461065476274697297617982283077816063232948369510617060092383401536750486495353075925000, .T 2787593149816327892691964784081045188247552, .T 649037107316853453566312041152512, .T 210624583337114373395836055367340864637790190801098222508621955072, .T 4, .N .Expr ALL, .T 8, .N .Tail ALL],
    [.T 252592461065476274697297617982283077816063232948369510617060092383401536750486495353075925000, .T 2787593149816327892691964784081045188247552, .T 137438953472, .N .Unary ALL, .N .TailB ALL, .T 67108864, .N .Unary ALL, .N .Tail ALL],
    [.T 252592461065476274697297617982283077816063232948369510617060092383401536750486495353075925000, .T 2787593149816327892691964784081045188247552, .T 340282366920938463463374607431768211456, .N .Unary ALL, .N .Tail ALL],
    [.T 252592461065476274697297617982283077816063232948369510617060092383401536750486495353075925000, .N .OpChunk 289873346565203679072259746929259255971249474352308505095699231977437875, .N .Tail ALL],
    [.T 154814734201420942556412224938632926085592750052404570586525350814391234361846333456272850952, .N .PostStep ALL, .N .Post ALL, .N .Tail ALL],
    [.T 268435456, .T 4, .N .InQueryE ALL, .T 8, .N .Post ALL, .N .Tail ALL],
    [.T 24444431716013833035221607389709440909145710549390238663953313042748819551734042463597232128, .T 4, .N .CallArgs ALL, .T 8, .N .OverOpt ALL, .N .Post ALL, .N .Tail ALL],
    [.T 784637716923335095479473677900958302012794712032981024768, .T 4, .N .Expr ALL, .T 536870912, .N .Type ALL, .N .CastFormatOpt ALL, .T 8, .N .Post ALL, .N .Tail ALL],
    [.T 1237940039285380274899124224, .T 4, .N .Expr ALL, .T 316912650057057350374175801344, .N .Expr ALL, .N .AtTimeZoneOpt ALL, .T 8, .N .Post ALL, .N .Tail ALL],
    [.T 77371252455336267181195264, .T 4, .N .InQueryE ALL, .T 8, .N .Tail ALL],
    [.T 24519928653854221903874898154151007882950521248832028672, .T 4, .N .CallArgs ALL, .T 8, .N .Post ALL, .N .Tail ALL]]

/-- parse_exprs -/
def e193 : Entry where
  args := [some (.kws []), some (.bool true), some (.bool true)]
  pre := [.N .WithArgs ALL]
  follow := 8
  post := [[.T 252592461065476274697297617982283077816063232948369510617060092383401536750486495353075925000]]

/-- parse_expr -/
def e194 : Entry where
  args := [some (.nat 4294967295), some (.bool false), some (.bool false), some (.bool false), some (.bool true)]
  pre := [.T 16, .N .StarModOpt ALL]
  follow := 260740604970814219042471907522408019713980811866040922571530097480027617193795042839321642056
  post := [[.T 24]]

/-- parse_expr -/
def e195 : Entry where
  args := [some (.nat 102), some (.bool false), some (.bool false), some (.bool false), some (.bool true)]
  pre := [.T 24444431716013833035221348260912537932617620723991235007633685392252575597160040474200768512, .T 4, .N .CallArgs ALL, .T 8, .N .OverOpt ALL, .N .Post ALL]
  follow := 256
  post := [[.T 24444431716013833035228250007259328496405055479853512033086136501224745983715202998424567816],
    [.T 24444431716013833035228250007259328496405055479853512033086136501224745983715202998424567816, .N .PostStep 256, .N .Post ALL]]

/-- parse_expr -/
def e196 : Entry where
  args := [some (.nat 101), some (.bool false), some (.bool false), some (.bool true), some (.bool true)]
  pre := [.T 24444431716013833035224799134085933214511338101922373520359910946738660790437621736310571008, .N .Post ALL, .N .Tail ALL]
  follow := 285185036686828052077693255783320557646598432590567375463928522937893532199548418773787608136
  post := [[.T 24444431716013833035224799134085933214511338101922373520359910946738660790437621736310571008],
    [.T 24444431716013833035224799134085933214511338101922373520359910946738660790437621736310571008, .T 2787593149816327892691964784081045188247552, .T 649037107316853453566312041152512, .T 4, .N .ExprList ALL, .T 8, .N .Tail ALL],
    [.T 24444431716013833035224799134085933214511338101922373520359910946738660790437621736310571008, .T 2787593149816327892691964784081045188247552, .T 649037107316853453566312041152512, .T 4, .N .InQueryE ALL, .T 8, .N .Tail ALL],
    [.T 24444431716013833035224799134085933214511338101922373520359910946738660790437621736310571008, .T 2787593149816327892691964784081045188247552, .T 649037107316853453566312041152512, .T 210624583337114373395836055367340864637790190801098222508621955072, .T 4, .N .Expr ALL, .T 8, .N .Tail ALL],
    [.T 24444431716013833035224799134085933214511338101922373520359910946738660790437621736310571008, .T 2787593149816327892691964784081045188247552, .T 137438953472, .N .Unary ALL, .N .TailB ALL, .T 67108864, .N .Unary ALL, .N .Tail ALL],
    [.T 24444431716013833035224799134085933214511338101922373520359910946738660790437621736310571008, .T 2787593149816327892691964784081045188247552, .T 340282366920938463463374607431768211456, .N .Unary ALL, .N .Tail ALL],
    [.T 24444431716013833035224799134085933214511338101922373520359910946738660790437621736310571008, .N .OpChunk 289873346565203679072259746929259255971249474352308505095699231977437875, .N .Tail ALL],
    [.T 24444431716013833035224799134085933214511338101922373520359910946738660790437621736310571008, .N .PostStep ALL, .N .Post ALL, .N .Tail ALL]]

/-- parse_expr -/
def e197 : Entry where
  args := [some (.nat 101), some (.bool false), some (.bool false), some (.bool true), some (.bool true)]
  pre := [.T 24444431716013833035224799134085933214511338101922373520359910946738660790437621736310571008]
  follow := 293324219738598960965977124146773581729172131317241428594407279579141042
  post := [[.T 24444431716013833035224799134085933214511338101922373520359910946738660790437621736310571008]]

/-- parse_binary_operator -/
def e198 : Entry where
  args := [none]
  pre := [.N .ArithOp ALL, .N .Unary ALL, .N .Tail ALL]
  follow := 285185036686828052077693255783320557646598432590567375463928522937893532199548418773787608136
  post := [[.T 252592461065476274697297617982283077816063232948369510617060092383401536750486495353075925000],
    [.T 252592461065476274697297617982283077816063232948369510617060092383401536750486495353075925000, .T 2787593149816327892691964784081045188247552, .T 649037107316853453566312041152512, .T 4, .N .ExprList ALL, .T 8, .N .Tail ALL],
    [.T 252592461065476274697297617982283077816063232948369510617060092383401536750486495353075925000, .T 2787593149816327892691964784081045188247552, .T 649037107316853453566312041152512, .T 4, .N .InQueryE ALL, .T 8, .N .Tail ALL],
    [.T 252592461065476274697297617982283077816063232948369510617060092383401536750486495353075925000, .T 2787593149816327892691964784081045188247552, .T 649037107316853453566312041152512, .T 210624583337114373395836055367340864637790190801098222508621955072, .T 4, .N .Expr ALL, .T 8, .N .Tail ALL],
    [.T 252592461065476274697297617982283077816063232948369510617060092383401536750486495353075925000, .T 2787593149816327892691964784081045188247552, .T 137438953472, .N .Unary ALL, .N .TailB ALL, .T 67108864, .N .Unary ALL, .N .Tail ALL],
    [.T 252592461065476274697297617982283077816063232948369510617060092383401536750486495353075925000, .T 2787593149816327892691964784081045188247552, .T 340282366920938463463374607431768211456, .N .Unary ALL, .N .Tail ALL],
    [.T 252592461065476274697297617982283077816063232948369510617060092383401536750486495353075925000, .N .OpChunk 289873346565203679072259746929259255971249474352308505095699231977437875, .N .Tail ALL],
    [.T 154814734201420942556412224938632926085592750052404570586525350814391234361846333456272850952, .N .PostStep ALL, .N .Post ALL, .N .Tail ALL],
    [.T 268435456, .T 4, .N .InQueryE ALL, .T 8, .N .Post ALL, .N .Tail ALL],
    [.T 24444431716013833035221607389709440909145710549390238663953313042748819551734042463597232128, .T 4, .N .CallArgs ALL, .T 8, .N .OverOpt ALL, .N .Post ALL, .N .Tail ALL],
    [.T 784637716923335095479473677900958302012794712032981024768, .T 4, .N .Expr ALL, .T 536870912, .N .Type ALL, .N .CastFormatOpt ALL, .T 8, .N .Post ALL, .N .Tail ALL],
    [.T 1237940039285380274899124224, .T 4, .N .Expr ALL, .T 316912650057057350374175801344, .N .Expr ALL, .N .AtTimeZoneOpt ALL, .T 8, .N .Post ALL, .N .Tail ALL],
    [.T 77371252455336267181195264, .T 4, .N .InQueryE ALL, .T 8, .N .Tail ALL],
    [.T 24519928653854221903874898154151007882950521248832028672, .T 4, .N .CallArgs ALL, .T 8, .N .Post ALL, .N .Tail ALL]]

/-- parse_binary_operator -/
def e199 : Entry where
  args := [none]
  pre := [.N .CompOp ALL, .N .Unary ALL, .N .Tail ALL]
  follow := 285185036686828052077693255783320557646598432590567375463928522937893532199548418773787608136
  post := [[.T 252592461065476274697297617982283077816063232948369510617060092383401536750486495353075925000],
    [.T 252592461065476274697297617982283077816063232948369510617060092383401536750486495353075925000, .T 2787593149816327892691964784081045188247552, .T 649037107316853453566312041152512, .T 4, .N .ExprList ALL, .T 8, .N .Tail ALL],
    [.T 252592461065476274697297617982283077816063232948369510617060092383401536750486495353075925000, .T 2787593149816327892691964784081045188247552, .T 649037107316853453566312041152512, .T 4, .N .InQueryE ALL, .T 8, .N .Tail ALL],
    [.T 252592461065476274697297617982283077816063232948369510617060092383401536750486495353075925000, .T 2787593149816327892691964784081045188247552, .T 649037107316853453566312041152512, .T 210624583337114373395836055367340864637790190801098222508621955072, .T 4, .N .Expr ALL, .T 8, .N .Tail ALL],
    [.T 252592461065476274697297617982283077816063232948369510617060092383401536750486495353075925000, .T 2787593149816327892691964784081045188247552, .T 137438953472, .N .Unary ALL, .N .TailB ALL, .T 67108864, .N .Unary ALL, .N .Tail ALL],
    [.T 252592461065476274697297617982283077816063232948369510617060092383401536750486495353075925000, .T 2787593149816327892691964784081045188247552, .T 340282366920938463463374607431768211456, .N .Unary ALL, .N .Tail ALL],
    [.T 252592461065476274697297617982283077816063232948369510617060092383401536750486495353075925000, .N .OpChunk 289873346565203679072259746929259255971249474352308505095699231977437875, .N .Tail ALL],
    [.T 154814734201420942556412224938632926085592750052404570586525350814391234361846333456272850952, .N .PostStep ALL, .N .Post ALL, .N .Tail ALL],
    [.T 268435456, .T 4, .N .InQueryE ALL, .T 8, .N .Post ALL, .N .Tail ALL],
    [.T 24444431716013833035221607389709440909145710549390238663953313042748819551734042463597232128, .T 4, .N .CallArgs ALL, .T 8, .N .OverOpt ALL, .N .Post ALL, .N .Tail ALL],
    [.T 784637716923335095479473677900958302012794712032981024768, .T 4, .N .Expr ALL, .T 536870912, .N .Type ALL, .N .CastFormatOpt ALL, .T 8, .N .Post ALL, .N .Tail ALL],
    [.T 1237940039285380274899124224, .T 4, .N .Expr ALL, .T 316912650057057350374175801344, .N .Expr ALL, .N .AtTimeZoneOpt ALL, .T 8, .N .Post ALL, .N .Tail ALL],
    [.T 77371252455336267181195264, .T 4, .N .InQueryE ALL, .T 8, .N .Tail ALL],
    [.T 24519928653854221903874898154151007882950521248832028672, .T 4, .N .CallArgs ALL, .T 8, .N .Post ALL, .N .Tail ALL]]

/-- parse_binary_operator -/
def e200 : Entry where
  args := [none]
  pre := [.T 340282366920938463463374607431768211456, .N .Unary ALL, .N .Tail ALL]
  follow := 285185036686828052077693255783320557646598432590567375463928522937893532199548418773787608136
  post := [[.T 252592461065476274697297617982283077816063232948369510617060092383401536750486495353075925000],
    [.T 252592461065476274697297617982283077816063232948369510617060092383401536750486495353075925000, .T 2787593149816327892691964784081045188247552, .T 649037107316853453566312041152512, .T 4, .N .ExprList ALL, .T 8, .N .Tail ALL],
    [.T 252592461065476274697297617982283077816063232948369510617060092383401536750486495353075925000, .T 2787593149816327892691964784081045188247552, .T 649037107316853453566312041152512, .T 4, .N .InQueryE ALL, .T 8, .N .Tail ALL],
    [.T 252592461065476274697297617982283077816063232948369510617060092383401536750486495353075925000, .T 2787593149816327892691964784081045188247552, .T 649037107316853453566312041152512, .T 210624583337114373395836055367340864637790190801098222508621955072, .T 4, .N .Expr ALL, .T 8, .N .Tail ALL],
    [.T 252592461065476274697297617982283077816063232948369510617060092383401536750486495353075925000, .T 2787593149816327892691964784081045188247552, .T 137438953472, .N .Unary ALL, .N .TailB ALL, .T 67108864, .N .Unary ALL, .N .Tail ALL],
    [.T 252592461065476274697297617982283077816063232948369510617060092383401536750486495353075925000, .T 2787593149816327892691964784081045188247552, .T 340282366920938463463374607431768211456, .N .Unary ALL, .N .Tail ALL],
    [.T 252592461065476274697297617982283077816063232948369510617060092383401536750486495353075925000, .N .OpChunk 289873346565203679072259746929259255971249474352308505095699231977437875, .N .Tail ALL],
    [.T 154814734201420942556412224938632926085592750052404570586525350814391234361846333456272850952, .N .PostStep ALL, .N .Post ALL, .N .Tail ALL],
    [.T 268435456, .T 4, .N .InQueryE ALL, .T 8, .N .Post ALL, .N .Tail ALL],
    [.T 24444431716013833035221607389709440909145710549390238663953313042748819551734042463597232128, .T 4, .N .CallArgs ALL, .T 8, .N .OverOpt ALL, .N .Post ALL, .N .Tail ALL],
    [.T 784637716923335095479473677900958302012794712032981024768, .T 4, .N .Expr ALL, .T 536870912, .N .Type ALL, .N .CastFormatOpt ALL, .T 8, .N .Post ALL, .N .Tail ALL],
    [.T 1237940039285380274899124224, .T 4, .N .Expr ALL, .T 316912650057057350374175801344, .N .Expr ALL, .N .AtTimeZoneOpt ALL, .T 8, .N .Post ALL, .N .Tail ALL],
    [.T 77371252455336267181195264, .T 4, .N .InQueryE ALL, .T 8, .N .Tail ALL],
    [.T 24519928653854221903874898154151007882950521248832028672, .T 4, .N .CallArgs ALL, .T 8, .N .Post ALL, .N .Tail ALL]]

/-- parse_binary_operator -/
def e201 : Entry where
  args := [none]
  pre := [.N .LogicOp ALL, .N .NotUnary ALL, .N .Tail ALL]
  follow := 285185036686828052077693255783320557646598432590567375463928522937893532199548418773787608136
  post := [[.T 252592461065476274697297617982283077816063232948369510617060092383401536750486495353075925000],
    [.T 252592461065476274697297617982283077816063232948369510617060092383401536750486495353075925000, .T 2787593149816327892691964784081045188247552, .T 649037107316853453566312041152512, .T 4, .N .ExprList ALL, .T 8, .N .Tail ALL],
    [.T 252592461065476274697297617982283077816063232948369510617060092383401536750486495353075925000, .T 2787593149816327892691964784081045188247552, .T 649037107316853453566312041152512, .T 4, .N .InQueryE ALL, .T 8, .N .Tail ALL],
    [.T 252592461065476274697297617982283077816063232948369510617060092383401536750486495353075925000, .T 2787593149816327892691964784081045188247552, .T 649037107316853453566312041152512, .T 210624583337114373395836055367340864637790190801098222508621955072, .T 4, .N .Expr ALL, .T 8, .N .Tail ALL],
    [.T 252592461065476274697297617982283077816063232948369510617060092383401536750486495353075925000, .T 2787593149816327892691964784081045188247552, .T 137438953472, .N .Unary ALL, .N .TailB ALL, .T 67108864, .N .Unary ALL, .N .Tail ALL],
    [.T 252592461065476274697297617982283077816063232948369510617060092383401536750486495353075925000, .T 2787593149816327892691964784081045188247552, .T 340282366920938463463374607431768211456, .N .Unary ALL, .N .Tail ALL],
    [.T 252592461065476274697297617982283077816063232948369510617060092383401536750486495353075925000, .N .OpChunk 289873346565203679072259746929259255971249474352308505095699231977437875, .N .Tail ALL],
    [.T 154814734201420942556412224938632926085592750052404570586525350814391234361846333456272850952, .N .PostStep ALL, .N .Post ALL, .N .Tail ALL],
    [.T 268435456, .T 4, .N .InQueryE ALL, .T 8, .N .Post ALL, .N .Tail ALL],
    [.T 24444431716013833035221607389709440909145710549390238663953313042748819551734042463597232128, .T 4, .N .CallArgs ALL, .T 8, .N .OverOpt ALL, .N .Post ALL, .N .Tail ALL],
    [.T 784637716923335095479473677900958302012794712032981024768, .T 4, .N .Expr ALL, .T 536870912, .N .Type ALL, .N .CastFormatOpt ALL, .T 8, .N .Post ALL, .N .Tail ALL],
    [.T 1237940039285380274899124224, .T 4, .N .Expr ALL, .T 316912650057057350374175801344, .N .Expr ALL, .N .AtTimeZoneOpt ALL, .T 8, .N .Post ALL, .N .Tail ALL],
    [.T 77371252455336267181195264, .T 4, .N .InQueryE ALL, .T 8, .N .Tail ALL],
    [.T 24519928653854221903874898154151007882950521248832028672, .T 4, .N .CallArgs ALL, .T 8, .N .Post ALL, .N .Tail ALL]]

/-- parse_is_distinct_from_operator -/
def e202 : Entry where
  args := [none]
  pre := [.T 332306998946228968225951765070086144, .N .NotOpt ALL, .T 18889465931478580854784, .T 316912650057057350374175801344, .N .Unary ALL, .N .Tail ALL]
  follow := 285185036686828052077693255783320557646598432590567375463928522937893532199548418773787608136
  post := [[.T 252592461065476274697297617982283077816063232948369510617060092383401536750486495353075925000],
    [.T 252592461065476274697297617982283077816063232948369510617060092383401536750486495353075925000, .T 2787593149816327892691964784081045188247552, .T 649037107316853453566312041152512, .T 4, .N .ExprList ALL, .T 8, .N .Tail ALL],
    [.T 252592461065476274697297617982283077816063232948369510617060092383401536750486495353075925000, .T 2787593149816327892691964784081045188247552, .T 649037107316853453566312041152512, .T 4, .N .InQueryE ALL, .T 8, .N .Tail ALL],
    [.T 252592461065476274697297617982283077816063232948369510617060092383401536750486495353075925000, .T 2787593149816327892691964784081045188247552, .T 649037107316853453566312041152512, .T 210624583337114373395836055367340864637790190801098222508621955072, .T 4, .N .Expr ALL, .T 8, .N .Tail ALL],
    [.T 252592461065476274697297617982283077816063232948369510617060092383401536750486495353075925000, .T 2787593149816327892691964784081045188247552, .T 137438953472, .N .Unary ALL, .N .TailB ALL, .T 67108864, .N .Unary ALL, .N .Tail ALL],
    [.T 252592461065476274697297617982283077816063232948369510617060092383401536750486495353075925000, .T 2787593149816327892691964784081045188247552, .T 340282366920938463463374607431768211456, .N .Unary ALL, .N .Tail ALL],
    [.T 252592461065476274697297617982283077816063232948369510617060092383401536750486495353075925000, .N .OpChunk 289873346565203679072259746929259255971249474352308505095699231977437875, .N .Tail ALL],
    [.T 154814734201420942556412224938632926085592750052404570586525350814391234361846333456272850952, .N .PostStep ALL, .N .Post ALL, .N .Tail ALL],
    [.T 268435456, .T 4, .N .InQueryE ALL, .T 8, .N .Post ALL, .N .Tail ALL],
    [.T 24444431716013833035221607389709440909145710549390238663953313042748819551734042463597232128, .T 4, .N .CallArgs ALL, .T 8, .N .OverOpt ALL, .N .Post ALL, .N .Tail ALL],
    [.T 784637716923335095479473677900958302012794712032981024768, .T 4, .N .Expr ALL, .T 536870912, .N .Type ALL, .N .CastFormatOpt ALL, .T 8, .N .Post ALL, .N .Tail ALL],
    [.T 1237940039285380274899124224, .T 4, .N .Expr ALL, .T 316912650057057350374175801344, .N .Expr ALL, .N .AtTimeZoneOpt ALL, .T 8, .N .Post ALL, .N .Tail ALL],
    [.T 77371252455336267181195264, .T 4, .N .InQueryE ALL, .T 8, .N .Tail ALL],
    [.T 24519928653854221903874898154151007882950521248832028672, .T 4, .N .CallArgs ALL, .T 8, .N .Post ALL, .N .Tail ALL]]

/-- parse_binary_operator -/
def e203 : Entry where
  args := [none]
  pre := [.T 332306998946228968225951765070086144, .N .NotOpt ALL, .N .IsWhat ALL, .N .Tail ALL]
  follow := 285185036686828052077693255783320557646598432590567375463928522937893532199548418773787608136
  post := [[.T 252592461065476274697297617982283077816063232948369510617060092383401536750486495353075925000],
    [.T 252592461065476274697297617982283077816063232948369510617060092383401536750486495353075925000, .T 2787593149816327892691964784081045188247552, .T 649037107316853453566312041152512, .T 4, .N .ExprList ALL, .T 8, .N .Tail ALL],
    [.T 252592461065476274697297617982283077816063232948369510617060092383401536750486495353075925000, .T 2787593149816327892691964784081045188247552, .T 649037107316853453566312041152512, .T 4, .N .InQueryE ALL, .T 8, .N .Tail ALL],
    [.T 252592461065476274697297617982283077816063232948369510617060092383401536750486495353075925000, .T 2787593149816327892691964784081045188247552, .T 649037107316853453566312041152512, .T 210624583337114373395836055367340864637790190801098222508621955072, .T 4, .N .Expr ALL, .T 8, .N .Tail ALL],
    [.T 252592461065476274697297617982283077816063232948369510617060092383401536750486495353075925000, .T 2787593149816327892691964784081045188247552, .T 137438953472, .N .Unary ALL, .N .TailB ALL, .T 67108864, .N .Unary ALL, .N .Tail ALL],
    [.T 252592461065476274697297617982283077816063232948369510617060092383401536750486495353075925000, .T 2787593149816327892691964784081045188247552, .T 340282366920938463463374607431768211456, .N .Unary ALL, .N .Tail ALL],
    [.T 252592461065476274697297617982283077816063232948369510617060092383401536750486495353075925000, .N .OpChunk 289873346565203679072259746929259255971249474352308505095699231977437875, .N .Tail ALL],
    [.T 154814734201420942556412224938632926085592750052404570586525350814391234361846333456272850952, .N .PostStep ALL, .N .Post ALL, .N .Tail ALL],
    [.T 268435456, .T 4, .N .InQueryE ALL, .T 8, .N .Post ALL, .N .Tail ALL],
    [.T 24444431716013833035221607389709440909145710549390238663953313042748819551734042463597232128, .T 4, .N .CallArgs ALL, .T 8, .N .OverOpt ALL, .N .Post ALL, .N .Tail ALL],
    [.T 784637716923335095479473677900958302012794712032981024768, .T 4, .N .Expr ALL, .T 536870912, .N .Type ALL, .N .CastFormatOpt ALL, .T 8, .N .Post ALL, .N .Tail ALL],
    [.T 1237940039285380274899124224, .T 4, .N .Expr ALL, .T 316912650057057350374175801344, .N .Expr ALL, .N .AtTimeZoneOpt ALL, .T 8, .N .Post ALL, .N .Tail ALL],
    [.T 77371252455336267181195264, .T 4, .N .InQueryE ALL, .T 8, .N .Tail ALL],
    [.T 24519928653854221903874898154151007882950521248832028672, .T 4, .N .CallArgs ALL, .T 8, .N .Post ALL, .N .Tail ALL]]

/-- parse_between_operator -/
def e204 : Entry where
  args := [none]
  pre := [.T 137438953472, .N .Unary ALL, .N .TailB ALL, .T 67108864, .N .Unary ALL, .N .Tail ALL]
  follow := 285185036686828052077693255783320557646598432590567375463928522937893532199548418773787608136
  post := [[.T 252592461065476274697297617982283077816063232948369510617060092383401536750486495353075925000],
    [.T 252592461065476274697297617982283077816063232948369510617060092383401536750486495353075925000, .T 2787593149816327892691964784081045188247552, .T 649037107316853453566312041152512, .T 4, .N .ExprList ALL, .T 8, .N .Tail ALL],
    [.T 252592461065476274697297617982283077816063232948369510617060092383401536750486495353075925000, .T 2787593149816327892691964784081045188247552, .T 649037107316853453566312041152512, .T 4, .N .InQueryE ALL, .T 8, .N .Tail ALL],
    [.T 252592461065476274697297617982283077816063232948369510617060092383401536750486495353075925000, .T 2787593149816327892691964784081045188247552, .T 649037107316853453566312041152512, .T 210624583337114373395836055367340864637790190801098222508621955072, .T 4, .N .Expr ALL, .T 8, .N .Tail ALL],
    [.T 252592461065476274697297617982283077816063232948369510617060092383401536750486495353075925000, .T 2787593149816327892691964784081045188247552, .T 137438953472, .N .Unary ALL, .N .TailB ALL, .T 67108864, .N .Unary ALL, .N .Tail ALL],
    [.T 252592461065476274697297617982283077816063232948369510617060092383401536750486495353075925000, .T 2787593149816327892691964784081045188247552, .T 340282366920938463463374607431768211456, .N .Unary ALL, .N .Tail ALL],
    [.T 252592461065476274697297617982283077816063232948369510617060092383401536750486495353075925000, .N .OpChunk 289873346565203679072259746929259255971249474352308505095699231977437875, .N .Tail ALL],
    [.T 154814734201420942556412224938632926085592750052404570586525350814391234361846333456272850952, .N .PostStep ALL, .N .Post ALL, .N .Tail ALL],
    [.T 268435456, .T 4, .N .InQueryE ALL, .T 8, .N .Post ALL, .N .Tail ALL],
    [.T 24444431716013833035221607389709440909145710549390238663953313042748819551734042463597232128, .T 4, .N .CallArgs ALL, .T 8, .N .OverOpt ALL, .N .Post ALL, .N .Tail ALL],
    [.T 784637716923335095479473677900958302012794712032981024768, .T 4, .N .Expr ALL, .T 536870912, .N .Type ALL, .N .CastFormatOpt ALL, .T 8, .N .Post ALL, .N .Tail ALL],
    [.T 1237940039285380274899124224, .T 4, .N .Expr ALL, .T 316912650057057350374175801344, .N .Expr ALL, .N .AtTimeZoneOpt ALL, .T 8, .N .Post ALL, .N .Tail ALL],
    [.T 77371252455336267181195264, .T 4, .N .InQueryE ALL, .T 8, .N .Tail ALL],
    [.T 24519928653854221903874898154151007882950521248832028672, .T 4, .N .CallArgs ALL, .T 8, .N .Post ALL, .N .Tail ALL]]

/-- parse_in_operator -/
def e205 : Entry where
  args := [none]
  pre := [.T 649037107316853453566312041152512, .T 210624583337114373395836055367340864637790190801098222508621955072, .T 4, .N .Expr ALL, .T 8, .N .Tail ALL]
  follow := 285185036686828052077693255783320557646598432590567375463928522937893532199548418773787608136
  post := [[.T 8],
    [.T 8, .T 2787593149816327892691964784081045188247552, .T 649037107316853453566312041152512, .T 4, .N .ExprList ALL, .T 8, .N .Tail ALL],
    [.T 8, .T 2787593149816327892691964784081045188247552, .T 649037107316853453566312041152512, .T 4, .N .InQueryE ALL, .T 8, .N .Tail ALL],
    [.T 8, .T 2787593149816327892691964784081045188247552, .T 649037107316853453566312041152512, .T 210624583337114373395836055367340864637790190801098222508621955072, .T 4, .N .Expr ALL, .T 8, .N .Tail ALL],
    [.T 8, .T 2787593149816327892691964784081045188247552, .T 137438953472, .N .Unary ALL, .N .TailB ALL, .T 67108864, .N .Unary ALL, .N .Tail ALL],
    [.T 8, .T 2787593149816327892691964784081045188247552, .T 340282366920938463463374607431768211456, .N .Unary ALL, .N .Tail ALL],
    [.T 8, .N .OpChunk 289873346565203679072259746929259255971249474352308505095699231977437875, .N .Tail ALL]]

/-- parse_expr -/
def e206 : Entry where
  args := [some (.nat 4294967295), some (.bool false), some (.bool false), some (.bool false), some (.bool false)]
  pre := [.T 24444431716013833035221607389709440909145710549390238663953313042748819551734042463597232128]
  follow := 260740604970814219042471907522408019713980812596970147198569806677218801468167514342924747848
  post := [[.T 24444431716013833035221607389709440909145710549390238663953313042748819551734042463597232128]]

/-- parse_xxxby_exprs -/
def e207 : Entry where
  args := []
  pre := [.N .OrderBy ALL]
  follow := 260740604970814219042471476057949053635186911213787135390824354084758199151430174736893608968
  post := [[.T 252592461065476274697297617982283077816063232948369510617060092383401536750486495353075925000]]

/-- parse_pipe_statement -/
def e208 : Entry where
  args := [none]
  pre := [.N .Pipes ALL]
  follow := 260740604970814219042361048116400404614587954389239840081425977517360806369707098391474864136
  post := [[.T ALL]]

/-- parse_set_operator -/
def e209 : Entry where
  args := [none]
  pre := [.N .SetOp ALL, .N .SelQ ALL]
  follow := 260740604970814219042361048116400404614587954389239840081425977517360806369707098391474865160
  post := [[.T ALL, .N .SelExcept ALL],
    [.T 252592461065476274697297617982283077816063232948369510617060092383401536750486495353075925016, .N .SelMethod ALL],
    [.T ALL],
    [.T ALL, .N .SetOpU ALL, .N .SelQ ALL],
    [.T ALL, .N .SetOpU ALL, .T 4, .N .InQuery ALL, .T 8, .N .ParRest1 ALL]]

/-- parse_set_operator -/
def e210 : Entry where
  args := [none]
  pre := [.N .SetOp ALL, .T 4, .N .InQuery ALL, .T 8]
  follow := 260740604970814219042361048221712696283145141100003097850200101225254316005973852936499889160
  post := [[.T 8]]

/-- parse_pipe_statement -/
def e211 : Entry where
  args := [none]
  pre := [.N .Pipes ALL, .T 1024]
  follow := 0
  post := [[.T 1024]]

/-- parse_select_statement -/
def e212 : Entry where
  args := [some (.bool true), some (.bool true)]
  pre := [.N .QueryBody ALL]
  follow := 260740604970814219042361048116400404614587954389239840081425977517360806369707098391474864128
  post := [[.T ALL]]

/-- parse_select_statement -/
def e213 : Entry where
  args := [some (.bool true), some (.bool true)]
  pre := [.N .QueryBody ALL, .T 1024]
  follow := 0
  post := [[.T 1024]]

/-- parse_select_statement -/
def e214 : Entry where
  args := [some (.bool false), some (.bool true)]
  pre := [.N .QueryBody ALL]
  follow := 260740604970814219042361048116400404614587954389239840081425977517360806369707098391474865160
  post := [[.T ALL]]

/-- push_trailing_alias -/
def e215 : Entry where
  args := [none]
  pre := [.T ALL, .N .Alias ALL]
  follow := 260740604970814219042472019153438807901366465063008420448588400086111996796588640122590725192
  post := [[.T 24444431716013833035221607389709440909145710549390238663953313042748819551734042463597232128],
    [.N .Alias 24444431716013833035221348260912537932617620723991235007633685392252575597160040474200768512]]

/-- push_trailing_alias -/
def e216 : Entry where
  args := [none]
  pre := [.T ALL, .N .AliasOpt ALL]
  follow := 260740604970814219042472881450482990047611146154317446122149567525437472948441132948359480392
  post := [[.T ALL],
    [.N .Alias 24444431716013833035221348260912537932617620723991235007633685392252575597160040474200768512]]

/-- parse_pivot_config_clause -/
def e217 : Entry where
  args := []
  pre := [.N .PivotConfig ALL]
  follow := 285185036686828052077693366993102179159755337533825896501601696489454445990149609310797169736
  post := [[.T 8]]

/-- parse_n_keywords -/
def e218 : Entry where
  args := [some (.nat 2)]
  pre := [.N .UnpivotNulls ALL]
  follow := 4
  post := [[.T 11150372599265311570767859136324180752990208]]

/-- parse_unpivot_config_clause -/
def e219 : Entry where
  args := []
  pre := [.N .UnpivotConfig ALL]
  follow := 285185036686828052077693366993102179159755337533825896501601696489454445990149609310797169736
  post := [[.T 8]]

/-- parse_match_recognize_clause -/
def e220 : Entry where
  args := []
  pre := [.N .MatchRecognize ALL]
  follow := 260740604970814219042472018732189641227137716809834661493968011097201870392989568836059530312
  post := [[.T ALL],
    [.N .Alias 24444431716013833035221348260912537932617620723991235007633685392252575597160040474200768512]]

/-- parse_identifier -/
def e221 : Entry where
  args := []
  pre := [.N .TvfName ALL]
  follow := 4
  post := [[.T 24444431716013833035221348260912537932617620723991235007633685392252575597160040474200768512]]

/-- parse_grouped_exprs -/
def e222 : Entry where
  args := [some (.bool false)]
  pre := [.T 4, .N .ValueList ALL, .T 8]
  follow := 260740604970814219042361102036293738915867543723270014120687324791649651450852060598695363648
  post := [[.T 8]]

/-- parse_grouped_type_declaration_or_constraints -/
def e223 : Entry where
  args := [some (.bool false), some (.bool true)]
  pre := [.N .Parameters ALL]
  follow := 6141954784879357793922952988922876917719481155384770560
  post := [[.T 8]]

/-- parse_grouped_type_declaration_or_constraints -/
def e224 : Entry where
  args := [some (.bool true), some (.bool false)]
  pre := [.N .Columns ALL]
  follow := 260740604970814219042361910834693753435061383916767141299146888651707503840221744157192881152
  post := [[.T 8]]

/-- parse_xxxby_exprs -/
def e225 : Entry where
  args := []
  pre := [.N .PartitionBy ALL]
  follow := 260740604970814219042361048116400404614587954391023899697308427685596313888578006536526234624
  post := [[.T 252592461065476274697297617982283077816063232948369510617060092383401536750486495353075925000]]

/-- parse_xxxby_exprs -/
def e226 : Entry where
  args := []
  pre := [.N .ClusterBy ALL]
  follow := 260740604970814219042361048116400404614587954389596652004602467804538027919127385500236645376
  post := [[.T 252592461065476274697297617982283077816063232948369510617060092383401536750486495353075925000]]

/-- parse_n_keywords -/
def e227 : Entry where
  args := [some (.nat 2)]
  pre := [.T 182687704666362864775460604089535377456991567872, .T 8148143905337944345073782753637512644205873574663745002544561797417525199053346824733589504]
  follow := 260740604970814219042361910834693753435061383734079436632784023876246899160388867491098526724
  post := [[.T 8148143905337944345073782753637512644205873574663745002544561797417525199053346824733589504]]

/-- parse_table -/
def e228 : Entry where
  args := [some (.bool true)]
  pre := [.N .TableName ALL, .N .SystemTime ALL]
  follow := 260740604970814219042361048116400404614587954389596652004602467487625377862069472175570551808
  post := [[.T 252592461065476274697297617982283077816063232948369510617060092383401536750486495353075925000]]

/-- parse_grouped_type_declaration_or_constraints -/
def e229 : Entry where
  args := [some (.bool true), some (.bool false)]
  pre := [.N .ProcParameters ALL]
  follow := 862718293348820473429344839596561991870325784389793554915788035457024
  post := [[.T 8]]

/-- parse_keyword_with_grouped_exprs -/
def e230 : Entry where
  args := [some (.bool false)]
  pre := [.N .Storing ALL]
  follow := 260740604970814219042361048116400404614587954572284356670965332263085981951604849632562119680
  post := [[.T 8]]

/-- parse_keyword_with_grouped_exprs -/
def e231 : Entry where
  args := [some (.bool true)]
  pre := [.N .Transform ALL]
  follow := 260740604970814219042361048116400404614599927033845629844614134764424634819015476750281868288
  post := [[.T 8]]

/-- parse_grouped_type_declaration_or_constraints -/
def e232 : Entry where
  args := [some (.bool false), some (.bool false)]
  pre := [.N .PlainColumns ALL]
  follow := 260740604970814219042361910834693753435073356561016119139148171651702340608671664804225614848
  post := [[.T 8]]

/-- parse_cte -/
def e233 : Entry where
  args := []
  pre := [.T 205688069665150755269371147819668813122841983204197482918576128, .T 536870912, .T 4, .N .InQuery ALL, .T 8, .T 64]
  follow := 8148143905337944345073782753637512644205873574663745002544561797417525199053346824733589504
  post := [[.T 64]]

/-- parse_type -/
def e234 : Entry where
  args := [some (.bool true), some (.bool false)]
  pre := [.N .SchemaType ALL, .N .ColumnRest ALL]
  follow := 260740604970814219042361048116400404614587954389239840081425977517360806369707098391474865224
  post := [[.T 252592461065476274697297617982283077816063232948369510617060092383401536750486495353076056072]]

/-- parse_constraint -/
def e235 : Entry where
  args := []
  pre := [.N .TableConstraint ALL]
  follow := 260740604970814219042361048116400404614587954389239840081425977517360806369707098391474865224
  post := [[.T 604462909807314587353096],
    [.N .Enforced 604462909807314587353088]]

/-- parse_alter_column_statement -/
def e236 : Entry where
  args := [some (.bool false)]
  pre := [.N .AlterColumn ALL]
  follow := 260740604970814219042361048116400404614587954389239840081425977517360806369707098391474865152
  post := [[.T 252592461065476274697297617982283077816063232948369510617060092383401536750486495353076056072]]

/-- parse_expr -/
def e237 : Entry where
  args := [some (.nat 101), some (.bool false), some (.bool false), some (.bool false), some (.bool true)]
  pre := [.T 4, .N .Expr ALL, .T 8]
  follow := 183044516589539355062637825638956227515169898500
  post := [[.T 8]]

/-- parse_select_statement -/
def e238 : Entry where
  args := [some (.bool false), some (.bool true)]
  pre := [.N .SelPipe ALL, .T 1024]
  follow := 260740604970814219042362183020893607946113512177965983186148277607400749266756941614533312516
  post := [[.T 1024]]

/-- parse_expr -/
def e239 : Entry where
  args := [some (.nat 4294967295), some (.bool true), some (.bool false), some (.bool false), some (.bool true)]
  pre := [.N .Expr ALL, .N .OrdOpt ALL]
  follow := 260740604970814219042471476057949053635186910483036272488665195300529613811721867575827629128
  post := [[.T 252592461065476274697297617982283077816063232948369510617060092383401536750486495353075925000]]

/-- parse_expr -/
def e240 : Entry where
  args := [some (.nat 4294967295), some (.bool true), some (.bool false), some (.bool false), some (.bool true)]
  pre := [.N .Expr ALL, .N .AliasOpt ALL]
  follow := 260740604970814219042471476057949053635186910483214678450253445356264300470820660454688293960
  post := [[.T 252592461065476274697297617982283077816063232948369510617060092383401536750486495353075925000]]

/-- parse_expr -/
def e241 : Entry where
  args := [some (.nat 4294967295), some (.bool false), some (.bool false), some (.bool false), some (.bool true)]
  pre := [.T 24444431716013833035221348260912537932617620723991235007633685392252575597160040474200768512, .T 65536, .N .Expr ALL]
  follow := 766247771860192802450272884702440521416558506036691016
  post := [[.T 252592461065476274697297617982283077816063232948369510617060092383401536750486495353075925000]]

/-- parse_exprs -/
def e242 : Entry where
  args := [some (.kws []), some (.bool false), some (.bool true)]
  pre := [.N .OrderItems ALL]
  follow := 260740604970814219042471476057949054027506517964292996552855313321871700894733453853357769736
  post := [[.T 252592461065476274697297617982283077816063232948369510617060092383401536750486495353075925000]]

/-- parse_expr -/
def e243 : Entry where
  args := [some (.nat 4294967295), some (.bool false), some (.bool false), some (.bool false), some (.bool true)]
  pre := [.N .SelPipeN ALL]
  follow := 8
  post := [[.T ALL]]

/-- parse_expr -/
def e244 : Entry where
  args := [some (.nat 4294967295), some (.bool false), some (.bool false), some (.bool false), some (.bool true)]
  pre := [.N .QueryN ALL]
  follow := 8
  post := [[.T ALL]]

/-- parse_expr -/
def e245 : Entry where
  args := [some (.nat 109), some (.bool false), some (.bool false), some (.bool false), some (.bool true)]
  pre := [.N .Unary ALL, .N .TailB ALL]
  follow := 67108864
  post := [[.T 252592461065476274697297617982283077816063232948369510617060092383401536750486495353075925000]]

/-- parse_expr -/
def e246 : Entry where
  args := [some (.nat 102), some (.bool false), some (.bool false), some (.bool false), some (.bool true)]
  pre := [.T 210624583337114373395836055367340864637790190801098222508621955072, .T 4, .N .Expr ALL, .T 8, .N .Tail ALL, .N .OrdOpt ALL]
  follow := 285185036686828052077701185798897675416964469318718184224603654508668903972724891550599873608
  post := [[.T 21267647942462179003110438034397462536],
    [.T 8, .T 2787593149816327892691964784081045188247552, .T 649037107316853453566312041152512, .T 4, .N .ExprList ALL, .T 8, .N .Tail ALL, .N .OrdOpt ALL],
    [.T 8, .T 2787593149816327892691964784081045188247552, .T 649037107316853453566312041152512, .T 4, .N .InQueryE ALL, .T 8, .N .Tail ALL, .N .OrdOpt ALL],
    [.T 8, .T 2787593149816327892691964784081045188247552, .T 649037107316853453566312041152512, .T 210624583337114373395836055367340864637790190801098222508621955072, .T 4, .N .Expr ALL, .T 8, .N .Tail ALL, .N .OrdOpt ALL],
    [.T 8, .T 2787593149816327892691964784081045188247552, .T 137438953472, .N .Unary ALL, .N .TailB ALL, .T 67108864, .N .Unary ALL, .N .Tail ALL, .N .OrdOpt ALL],
    [.T 8, .T 2787593149816327892691964784081045188247552, .T 340282366920938463463374607431768211456, .N .Unary ALL, .N .Tail ALL, .N .OrdOpt ALL],
    [.T 8, .N .OpChunk 289873346565203679072259746929259255971249474352308505095699231977437875, .N .Tail ALL, .N .OrdOpt ALL]]

/-- parse_keyword_with_statements -/
def e247 : Entry where
  args := [some (.kws [.END])]
  pre := [.T 75557863725914323419136, .N .Block ALL]
  follow := 302231454903657293676544
  post := [[.T 75557863725914323420160]]

/-- parse_n_keywords -/
def e248 : Entry where
  args := [some (.nat 2)]
  pre := [.T 302231454903657293676544, .T 39614081257132168796771975168]
  follow := 260740604970814219042361048116400404614587954389239840081425977517360806369707098391474865152
  post := [[.T 39614081257132168796771975168]]

/-- parse_exprs -/
def e249 : Entry where
  args := [some (.kws [.sym_rparen]), some (.bool true), some (.bool true)]
  pre := [.N .AliasedList ALL]
  follow := 8
  post := [[.T 252592461065476274697297617982283077816063232948369510617060092383401536750486495353075925000]]

/-- parse_expr -/
def e250 : Entry where
  args := [some (.nat 4294967295), some (.bool true), some (.bool false), some (.bool false), some (.bool true)]
  pre := [.T 24444431716013833035221348260912537932617620723991235007633685392252575597160040474200768512, .T 536870912, .N .Expr ALL]
  follow := 356811923176489970264571492362373784095686728
  post := [[.T 252592461065476274697297617982283077816063232948369510617060092383401536750486495353075925000]]

/-- parse_expr -/
def e251 : Entry where
  args := [some (.nat 102), some (.bool false), some (.bool false), some (.bool false), some (.bool true)]
  pre := [.T 210624583337114373395836055367340864637790190801098222508621955072, .T 4, .N .Expr ALL, .T 8, .N .Tail ALL]
  follow := 285185036686828052077693255783320557646598432590567375463928522937893532199548418773787608136
  post := [[.T 8],
    [.T 8, .T 2787593149816327892691964784081045188247552, .T 649037107316853453566312041152512, .T 4, .N .ExprList ALL, .T 8, .N .Tail ALL],
    [.T 8, .T 2787593149816327892691964784081045188247552, .T 649037107316853453566312041152512, .T 4, .N .InQueryE ALL, .T 8, .N .Tail ALL],
    [.T 8, .T 2787593149816327892691964784081045188247552, .T 649037107316853453566312041152512, .T 210624583337114373395836055367340864637790190801098222508621955072, .T 4, .N .Expr ALL, .T 8, .N .Tail ALL],
    [.T 8, .T 2787593149816327892691964784081045188247552, .T 137438953472, .N .Unary ALL, .N .TailB ALL, .T 67108864, .N .Unary ALL, .N .Tail ALL],
    [.T 8, .T 2787593149816327892691964784081045188247552, .T 340282366920938463463374607431768211456, .N .Unary ALL, .N .Tail ALL],
    [.T 8, .N .OpChunk 289873346565203679072259746929259255971249474352308505095699231977437875, .N .Tail ALL]]

/-- parse_base_pipe_operator -/
def e252 : Entry where
  args := [some (.bool false)]
  pre := [.N .PipeWord ALL, .N .AliasedList ALL]
  follow := 260740604970814219042471476057949053635186910483036272488665195260915532554589698779055653896
  post := [[.T 252592461065476274697297617982283077816063232948369510617060092383401536750486495353075925000]]

/-- parse_base_pipe_operator -/
def e253 : Entry where
  args := [some (.bool true)]
  pre := [.T 1427247692705959881058285969449495136382746624, .T 8796093022208, .N .OrderItems ALL]
  follow := 260740604970814219042471476057949053635186910483036272488665195260915532554589698779055653896
  post := [[.T 252592461065476274697297617982283077816063232948369510617060092383401536750486495353075925000]]

/-- parse_select_pipe_operator -/
def e254 : Entry where
  args := []
  pre := [.T 6277101735386680763835789423207666416102355444464034512896, .N .SelModOpt ALL, .N .SelAsOpt ALL, .N .SelectList ALL, .N .WindowOpt ALL]
  follow := 260740604970814219042471476057949053635186910483036272488665195260915532554589698779055653896
  post := [[.T 252592461065476274697297617982283077816063232948369510617060092383401536750486495353075925016]]

/-- parse_limit_pipe_operator -/
def e255 : Entry where
  args := []
  pre := [.T 680564733841876926926749214863536422912, .N .Expr ALL]
  follow := 260740604970814219042471476057949053635186910483036272488665195260915532554589698779055653896
  post := [[.T 252592461065476274697297617982283077816063232948369510617060092383401536750486495353075925000]]

/-- parse_limit_pipe_operator -/
def e256 : Entry where
  args := []
  pre := [.T 680564733841876926926749214863536422912, .N .Expr ALL, .T 89202980794122492566142873090593446023921664, .N .Expr ALL]
  follow := 260740604970814219042471476057949053635186910483036272488665195260915532554589698779055653896
  post := [[.T 252592461065476274697297617982283077816063232948369510617060092383401536750486495353075925000]]

/-- parse_aggregate_pipe_operator -/
def e257 : Entry where
  args := []
  pre := [.T 8388608, .N .AliasedList ALL, .N .PipeGroupByOpt ALL]
  follow := 260740604970814219042471476057949053635186910483036272488665195260915532554589698779055653896
  post := [[.T 252592461065476274697297617982283077816063232948369510617060092383401536750486495353075925000]]

/-- parse_union_pipe_operator -/
def e258 : Entry where
  args := []
  pre := [.N .SetOp ALL, .N .PipeInputs ALL]
  follow := 260740604970814219042471476057949053635186910483036272488665195260915532554589698779055653896
  post := [[.T 252592461065476274697297617982283077816063232948369510617060092383401536750486495353075925000]]

/-- parse_join_pipe_operator -/
def e259 : Entry where
  args := []
  pre := [.N .PipeJoin ALL]
  follow := 260740604970814219042471476057949053635186910483036272488665195260915532554589698779055653896
  post := [[.T ALL]]

/-- parse_tablesample_pipe_operator -/
def e260 : Entry where
  args := []
  pre := [.N .Sample ALL]
  follow := 260740604970814219042471476057949053635186910483036272488665195260915532554589698779055653896
  post := [[.T 8]]

/-- parse_pivot_pipe_operator -/
def e261 : Entry where
  args := []
  pre := [.N .Pivot ALL]
  follow := 260740604970814219042471476057949053635186910483036272488665195260915532554589698779055653896
  post := [[.T ALL],
    [.N .Alias 24444431716013833035221348260912537932617620723991235007633685392252575597160040474200768512]]

/-- parse_unpivot_pipe_operator -/
def e262 : Entry where
  args := []
  pre := [.N .Unpivot ALL]
  follow := 260740604970814219042471476057949053635186910483036272488665195260915532554589698779055653896
  post := [[.T ALL],
    [.N .Alias 24444431716013833035221348260912537932617620723991235007633685392252575597160040474200768512]]

/-- parse_with_pipe_operator -/
def e263 : Entry where
  args := []
  pre := [.N .With ALL]
  follow := 110427941548649020598956093796432407239217743554726184882600387580788736
  post := [[.T 8]]

/-- parse_match_recognize_pipe_operator -/
def e264 : Entry where
  args := []
  pre := [.N .MatchRecognize ALL]
  follow := 260740604970814219042471476057949053635186910483036272488665195260915532554589698779055653896
  post := [[.T ALL],
    [.N .Alias 24444431716013833035221348260912537932617620723991235007633685392252575597160040474200768512]]

/-- parse_by_name_clause -/
def e265 : Entry where
  args := []
  pre := [.T 8796093022208, .T 24444431716013833035221607389709440909145710549390238663953313042748819551734042463597232128]
  follow := 6277101735386680763835789423207666416102355444464034512900
  post := [[.T 24444431716013833035221607389709440909145710549390238663953313042748819551734042463597232128]]

/-- parse_by_name_clause -/
def e266 : Entry where
  args := []
  pre := [.T 8796093022208, .T 24444431716013833035221607389709440909145710549390238663953313042748819551734042463597232128, .T 178405961588244985132285746181186892047843328, .T 4, .N .ExprList ALL, .T 8]
  follow := 6277101735386680763835789423207666416102355444464034512900
  post := [[.T 8]]

/-- parse_corresponding_clause -/
def e267 : Entry where
  args := []
  pre := [.T 200867255532373784442745261542645325315275374222849104412672, .N .Corresponding ALL]
  follow := 6277101735386680763835789423207666416102355444464034512900
  post := [[.T 576460752303423496]]

/-- parse_corresponding_clause -/
def e268 : Entry where
  args := []
  pre := [.N .Corresponding ALL]
  follow := 6277101735386680763835789423207666416102355444464034512900
  post := [[.T 576460752303423496]]

/-- parse_select_statement -/
def e269 : Entry where
  args := [some (.bool false), some (.bool false)]
  pre := [.N .SelectFrom ALL, .N .SelExcept ALL]
  follow := 260740604970814219042361048116400404614587954389239840081425977517360806369707098391474865160
  post := [[.T ALL, .N .SelExcept ALL]]

/-- parse_select_statement -/
def e270 : Entry where
  args := [some (.bool false), some (.bool false)]
  pre := [.N .SelectOnly ALL, .N .SelMethod ALL]
  follow := 260740604970814219042361048116400404614587954389239840081425977517360806369707098391474865160
  post := [[.T 252592461065476274697297617982283077816063232948369510617060092383401536750486495353075925016, .N .SelMethod ALL]]

/-- parse_select_statement -/
def e271 : Entry where
  args := [some (.bool false), some (.bool false)]
  pre := [.N .SelectCore ALL, .N .SelRest ALL]
  follow := 260740604970814219042361048116400404614587954389239840081425977517360806369707098391474865160
  post := [[.T ALL],
    [.T ALL, .N .SetOpU ALL, .N .SelQ ALL],
    [.T ALL, .N .SetOpU ALL, .T 4, .N .InQuery ALL, .T 8, .N .ParRest1 ALL]]

/-- parse_table_sample_ratio -/
def e272 : Entry where
  args := []
  pre := [.T 4, .N .Expr ALL, .T 8148143905337944345073782753637512644205873574663745002544561797417525199053346824733589504, .T 8]
  follow := 260740604970814219042472018732188034289093457819559119531875669934599348189995786043224228936
  post := [[.T 8]]

/-- parse_table -/
def e273 : Entry where
  args := [some (.bool false)]
  pre := [.N .TablePrimP ALL]
  follow := 260740604970814219042472018626875730066332800348279564176584852825498306260429083373511640136
  post := [[.T ALL]]

/-- parse_groupby_exprs -/
def e274 : Entry where
  args := [some (.bool false)]
  pre := [.N .GroupBy ALL]
  follow := 260740604970814219042471907522408019713980905390727730037525484037397424273598873947070268424
  post := [[.T 252592461065476274697297617982283077816063232948369510617060092383401536750486495353075925000]]

/-- parse_window_clause -/
def e275 : Entry where
  args := []
  pre := [.N .Window ALL]
  follow := 260740604970814219042471476163261345303744097182381548545647859677618955175644222520618386440
  post := [[.T 24444431716013833035221348260912537932617620723991235007633685392252575597160040474200768520]]

/-- parse_table -/
def e276 : Entry where
  args := [some (.bool false)]
  pre := [.N .TablePrim ALL]
  follow := 260740604970814219042361590790639385268494501725762687124636452191044622005113185655643440200
  post := [[.T ALL]]

/-- parse_exprs -/
def e277 : Entry where
  args := [some (.kws []), some (.bool false), some (.bool true)]
  pre := [.N .SetItems ALL]
  follow := 260740604970814219042361209876080407518426722391330362199210019657139991670199335387312161792
  post := [[.T 252592461065476274697297617982283077816063232948369510617060092383401536750486495353075925000]]

/-- parse_expr -/
def e278 : Entry where
  args := [some (.nat 4294967295), some (.bool false), some (.bool false), some (.bool false), some (.bool true)]
  pre := [.T 24444431716013833035221348260912537932617620723991235007633685392252575597160040474200768512]
  follow := 97777726864055332140885393043650151730470482895964940030534741569010302388640161897339945032
  post := [[.T 24444431716013833035221348260912537932617620723991235007633685392252575597160040474200768512]]

/-- parse_expr -/
def e279 : Entry where
  args := [some (.nat 4294967295), some (.bool false), some (.bool false), some (.bool false), some (.bool true)]
  pre := [.T 97777726864055332140885393043650151730470482895964940030534741569010302388640161896803074048]
  follow := 72
  post := [[.T 97777726864055332140885393043650151730470482895964940030534741569010302388640161896803074048]]

/-- parse_match_recognize_config -/
def e280 : Entry where
  args := []
  pre := [.N .MatchConfig ALL]
  follow := 285185036686828052077693366993102179159755337533825896501601696489454445990149609310797169736
  post := [[.T 8]]

/-- parse_single_or_multi_token_identifier -/
def e281 : Entry where
  args := []
  pre := [.T 24444431716013833035221348260912537932617620723991235007633685392252575597160040474200768512]
  follow := 260
  post := [[.T 24444431716013833035221348260912537932617620723991235007633685392252575597160040474200768512]]

/-- parse_exprs -/
def e282 : Entry where
  args := [some (.kws [.sym_rparen]), some (.bool false), some (.bool true)]
  pre := [.N .ValueList ALL]
  follow := 8
  post := [[.T 252592461065476274697297617982283077816063232948369510617060092383401536750486495353075925000]]

/-- parse_type -/
def e283 : Entry where
  args := [some (.bool false), some (.bool true)]
  pre := [.N .ParamType ALL, .N .NotAggregateOpt ALL]
  follow := 72
  post := [[.T 24444431716013833035221607402873477367715358886629992124495193832347263718859169311653756936]]

/-- parse_type -/
def e284 : Entry where
  args := [some (.bool false), some (.bool false)]
  pre := [.N .ReturnType ALL]
  follow := 11972621415802360489564880321640183244524666650361856
  post := [[.T 24444431716013833035221607389709440909145710549390238664036389792485376793790530404864884744]]

/-- parse_n_keywords -/
def e285 : Entry where
  args := [some (.nat 2)]
  pre := [.T 2787593149816327892691964784081045188247552, .T 9444732965739290427392]
  follow := 10633823966279326983230456482242756608
  post := [[.T 9444732965739290427392]]

/-- parse_n_keywords -/
def e286 : Entry where
  args := [some (.nat 1)]
  pre := [.T 9444732965739290427392]
  follow := 10633823966279326983230456482242756608
  post := [[.T 9444732965739290427392]]

/-- parse_type -/
def e287 : Entry where
  args := [some (.bool true), some (.bool false)]
  pre := [.N .ParamType ALL]
  follow := 72
  post := [[.T 24444431716013833035221607402873477367715358886629992124495193832347263718859169311653756936]]

/-- parse_begin_statement -/
def e288 : Entry where
  args := [some (.bool false)]
  pre := [.N .BeginBlock ALL]
  follow := 260740604970814219042361048116400404614587954389239840081425977517360806369707098391474865152
  post := [[.T 302231454903657293676544]]

/-- parse_grouped_exprs -/
def e289 : Entry where
  args := [some (.bool true)]
  pre := [.T 4, .N .SelectList ALL, .T 8]
  follow := 260740604970814219042361048116400404614599927033845629844614134764424634819015476750281868288
  post := [[.T 8]]

/-- parse_cte -/
def e290 : Entry where
  args := []
  pre := [.T 24444431716013833035221348260912537932617620723991235007633685392252575597160040474200768512, .T 536870912, .T 4, .N .InQuery ALL, .T 8]
  follow := 8
  post := [[.T 8]]

/-- parse_type -/
def e291 : Entry where
  args := [some (.bool true), some (.bool false)]
  pre := [.N .SchemaType ALL, .N .FieldRest ALL]
  follow := 131136
  post := [[.T 89629582958717387795811869418809542062792699146705773870692516827610962315785467093110095880]]

/-- parse_type -/
def e292 : Entry where
  args := [some (.bool true), some (.bool false)]
  pre := [.T 268435456, .T 2048, .N .SchemaType ALL, .N .FieldRest ALL, .T 131072, .N .FieldRest ALL]
  follow := 131136
  post := [[.T 65185151242703554760590262029100101153646988597315535206656127035125585521994936688245342216]]

/-- parse_type -/
def e293 : Entry where
  args := [some (.bool true), some (.bool false)]
  pre := [.T 401734511064747568885490523085290650630550748445698208825344, .T 2048, .N .SchemaFields ALL, .T 131072, .N .FieldRest ALL]
  follow := 131136
  post := [[.T 65185151242703554760590262029100101153646988597315535206656127035125585521994936688245342216]]

/-- parse_enforced -/
def e294 : Entry where
  args := []
  pre := [.N .Enforced ALL]
  follow := 260740604970814219042361048116400404614587954389599439597752283815518070417149363579464451144
  post := [[.T 604462909807314587353088],
    [.N .Enforced 604462909807314587353088]]

/-- parse_expr -/
def e295 : Entry where
  args := [some (.nat 4294967295), some (.bool false), some (.bool true), some (.bool false), some (.bool true)]
  pre := [.N .TvfName ALL, .T 4, .N .ExprList ALL, .T 8, .N .Enforced ALL]
  follow := 260740604970814219042361048116400404614587954389599439597752283815518070417149363579464451144
  post := [[.T 8, .T 2787593149816327892691964784081045188247552, .T 604462909807314587353088],
    [.T 8, .N .Enforced 604462909807314587353088]]

/-- parse_expr -/
def e296 : Entry where
  args := [some (.nat 4294967295), some (.bool false), some (.bool true), some (.bool false), some (.bool true)]
  pre := [.N .TvfName ALL, .T 4, .N .ExprList ALL, .T 8, .N .EnforcedOpt ALL]
  follow := 260740604970814219042361048116400404614587954389596652004602467487625378452365282534276203592
  post := [[.T 8],
    [.T 8, .T 2787593149816327892691964784081045188247552, .T 604462909807314587353088],
    [.T 8, .N .Enforced 604462909807314587353088]]

/-- parse_update_statement -/
def e297 : Entry where
  args := [some (.bool false)]
  pre := [.T 1684996666696914987166688442938726917102321526408785780068975640576, .T 12554203470773361527671578846415332832204710888928069025792, .N .SetItems ALL]
  follow := 260740604970814219042361102036293738915867543723270014120687324791649651450852060598695363584
  post := [[.T 252592461065476274697297617982283077816063232948369510617060092383401536750486495353075925000]]

/-- parse_insert_statement -/
def e298 : Entry where
  args := [some (.bool false)]
  pre := [.T 20769187434139310514121985316880384, .N .MergeInput ALL]
  follow := 260740604970814219042361102036293738915867543723270014120687324791649651450852060598695363584
  post := [[.T 196159429230833773869868419475239575503198607639501078536]]

/-- parse_insert_statement -/
def e299 : Entry where
  args := [some (.bool false)]
  pre := [.T 20769187434139310514121985316880384, .T 4, .N .ExprList ALL, .T 8, .N .MergeInput ALL]
  follow := 260740604970814219042361102036293738915867543723270014120687324791649651450852060598695363584
  post := [[.T 196159429230833773869868419475239575503198607639501078536]]

/-- parse_keyword_with_grouped_exprs -/
def e300 : Entry where
  args := [some (.bool true)]
  pre := [.N .PivotIn ALL]
  follow := 8
  post := [[.T 8]]

/-- parse_binary_operator -/
def e301 : Entry where
  args := [none]
  pre := [.T 65536, .N .Expr ALL]
  follow := 766247771860192802450272884702440521416558506036691016
  post := [[.T 252592461065476274697297617982283077816063232948369510617060092383401536750486495353075925000]]

/-- parse_expr -/
def e302 : Entry where
  args := [some (.natB 109), some (.bool false), some (.bool false), some (.bool false), some (.bool true)]
  pre := [.N .Unary ALL, .N .TailB ALL]
  follow := 67141632
  post := [[.T 252592461065476274697297617982283077816063232948369510617060092383401536750486495353075925000],
    [.T 252592461065476274697297617982283077816063232948369510617060092383401536750486495353075925000, .N .ArithOp ALL, .N .Unary ALL, .N .TailB ALL],
    [.T 154814734201420942556412224938632926085592750052404570586525350814391234361846333456272850952, .N .PostStep ALL, .N .Post ALL, .N .TailB ALL],
    [.T 268435456, .T 4, .N .InQueryE ALL, .T 8, .N .Post ALL, .N .TailB ALL],
    [.T 24444431716013833035221607389709440909145710549390238663953313042748819551734042463597232128, .T 4, .N .CallArgs ALL, .T 8, .N .OverOpt ALL, .N .Post ALL, .N .TailB ALL],
    [.T 784637716923335095479473677900958302012794712032981024768, .T 4, .N .Expr ALL, .T 536870912, .N .Type ALL, .N .CastFormatOpt ALL, .T 8, .N .Post ALL, .N .TailB ALL],
    [.T 1237940039285380274899124224, .T 4, .N .Expr ALL, .T 316912650057057350374175801344, .N .Expr ALL, .N .AtTimeZoneOpt ALL, .T 8, .N .Post ALL, .N .TailB ALL],
    [.T 77371252455336267181195264, .T 4, .N .InQueryE ALL, .T 8, .N .TailB ALL],
    [.T 24519928653854221903874898154151007882950521248832028672, .T 4, .N .CallArgs ALL, .T 8, .N .Post ALL, .N .TailB ALL]]

/-- parse_expr -/
def e303 : Entry where
  args := [some (.natB 109), some (.bool false), some (.bool false), some (.bool false), some (.bool true)]
  pre := [.T 1683649886205200161770644927289158038645867672502272, .T 65185151242703554760590262029100101153646988597309960020356494379340201592426774597868716032, .N .TailB ALL]
  follow := 67141632
  post := [[.T 252592461065476274697297617982283077816063232948369510617060092383401536750486495353075925000],
    [.T 252592461065476274697297617982283077816063232948369510617060092383401536750486495353075925000, .N .ArithOp ALL, .N .Unary ALL, .N .TailB ALL],
    [.T 154814734201420942556412224938632926085592750052404570586525350814391234361846333456272850952, .N .PostStep ALL, .N .Post ALL, .N .TailB ALL],
    [.T 268435456, .T 4, .N .InQueryE ALL, .T 8, .N .Post ALL, .N .TailB ALL],
    [.T 24444431716013833035221607389709440909145710549390238663953313042748819551734042463597232128, .T 4, .N .CallArgs ALL, .T 8, .N .OverOpt ALL, .N .Post ALL, .N .TailB ALL],
    [.T 784637716923335095479473677900958302012794712032981024768, .T 4, .N .Expr ALL, .T 536870912, .N .Type ALL, .N .CastFormatOpt ALL, .T 8, .N .Post ALL, .N .TailB ALL],
    [.T 1237940039285380274899124224, .T 4, .N .Expr ALL, .T 316912650057057350374175801344, .N .Expr ALL, .N .AtTimeZoneOpt ALL, .T 8, .N .Post ALL, .N .TailB ALL],
    [.T 77371252455336267181195264, .T 4, .N .InQueryE ALL, .T 8, .N .TailB ALL],
    [.T 24519928653854221903874898154151007882950521248832028672, .T 4, .N .CallArgs ALL, .T 8, .N .Post ALL, .N .TailB ALL]]

/-- parse_binary_operator -/
def e304 : Entry where
  args := [none]
  pre := [.N .ArithOp ALL, .N .Unary ALL, .N .TailB ALL]
  follow := 67141632
  post := [[.T 252592461065476274697297617982283077816063232948369510617060092383401536750486495353075925000],
    [.T 252592461065476274697297617982283077816063232948369510617060092383401536750486495353075925000, .N .ArithOp ALL, .N .Unary ALL, .N .TailB ALL],
    [.T 154814734201420942556412224938632926085592750052404570586525350814391234361846333456272850952, .N .PostStep ALL, .N .Post ALL, .N .TailB ALL],
    [.T 268435456, .T 4, .N .InQueryE ALL, .T 8, .N .Post ALL, .N .TailB ALL],
    [.T 24444431716013833035221607389709440909145710549390238663953313042748819551734042463597232128, .T 4, .N .CallArgs ALL, .T 8, .N .OverOpt ALL, .N .Post ALL, .N .TailB ALL],
    [.T 784637716923335095479473677900958302012794712032981024768, .T 4, .N .Expr ALL, .T 536870912, .N .Type ALL, .N .CastFormatOpt ALL, .T 8, .N .Post ALL, .N .TailB ALL],
    [.T 1237940039285380274899124224, .T 4, .N .Expr ALL, .T 316912650057057350374175801344, .N .Expr ALL, .N .AtTimeZoneOpt ALL, .T 8, .N .Post ALL, .N .TailB ALL],
    [.T 77371252455336267181195264, .T 4, .N .InQueryE ALL, .T 8, .N .TailB ALL],
    [.T 24519928653854221903874898154151007882950521248832028672, .T 4, .N .CallArgs ALL, .T 8, .N .Post ALL, .N .TailB ALL]]

/-- parse_expr -/
def e305 : Entry where
  args := [some (.nat 4294967295), some (.bool false), some (.bool false), some (.bool false), some (.bool false)]
  pre := [.N .Expr ALL]
  follow := 356811923176489970264571492362373784095686728
  post := [[.T 252592461065476274697297617982283077816063232948369510617060092383401536750486495353075925000]]

/-- parse_exprs -/
def e306 : Entry where
  args := [some (.kws [.sym_semi]), some (.bool true), some (.bool true)]
  pre := [.N .AliasedList ALL]
  follow := 260740604970814219042471476057949053635186910483036272488665195260915532554589698779055653896
  post := [[.T 252592461065476274697297617982283077816063232948369510617060092383401536750486495353075925000]]

/-- parse_exprs -/
def e307 : Entry where
  args := [some (.kws [.sym_semi]), some (.bool true), some (.bool true)]
  pre := [.N .OrderItems ALL]
  follow := 260740604970814219042471476057949053635186910483036272488665195260915532554589698779055653896
  post := [[.T 252592461065476274697297617982283077816063232948369510617060092383401536750486495353075925000]]

/-- parse_exprs -/
def e308 : Entry where
  args := [some (.kws [.sym_semi, .WINDOW]), some (.bool true), some (.bool true)]
  pre := [.N .SelectList ALL]
  follow := 260740604970814219042471907417095728045423625155277664802755973455226293203749396436819641352
  post := [[.T 252592461065476274697297617982283077816063232948369510617060092383401536750486495353075925016]]

/-- parse_exprs -/
def e309 : Entry where
  args := [some (.kws [.sym_semi, .OFFSET]), some (.bool false), some (.bool true)]
  pre := [.N .ExprList ALL]
  follow := 260740604970814219042471476057949053635186910483125475469459317753481675427680292225079575560
  post := [[.T 252592461065476274697297617982283077816063232948369510617060092383401536750486495353075925000]]

/-- parse_exprs -/
def e310 : Entry where
  args := [some (.kws [.sym_semi, .GROUP]), some (.bool true), some (.bool true)]
  pre := [.N .AliasedList ALL]
  follow := 260740604970814219042471476057949053635186910483036272488665200331517933467507304765868475400
  post := [[.T 252592461065476274697297617982283077816063232948369510617060092383401536750486495353075925000]]

/-- parse_exprs -/
def e311 : Entry where
  args := [some (.kws [.sym_semi]), some (.bool true), some (.bool true)]
  pre := [.N .PipeInputs ALL]
  follow := 260740604970814219042471476057949053635186910483036272488665195260915532554589698779055653896
  post := [[.T 252592461065476274697297617982283077816063232948369510617060092383401536750486495353075925000]]

/-- parse_expr -/
def e312 : Entry where
  args := [some (.nat 4294967295), some (.bool false), some (.bool false), some (.bool false), some (.bool true)]
  pre := [.T 3369993333393829974333376885877453834204643052817571560137951281152, .T 4, .N .ExprList ALL, .T 8]
  follow := 260740604970814219042472015362194700895263483486003827692833590744824009626243039013225104456
  post := [[.T 8]]

/-- parse_n_keywords -/
def e313 : Entry where
  args := [some (.nat 1)]
  pre := [.T 98079714615416886934934209737619787751599303819750539264]
  follow := 4
  post := [[.T 98079714615416886934934209737619787751599303819750539264]]

/-- parse_n_keywords -/
def e314 : Entry where
  args := [some (.nat 1)]
  pre := [.T 4611686018427387904]
  follow := 4
  post := [[.T 4611686018427387904]]

/-- parse_n_keywords -/
def e315 : Entry where
  args := [some (.nat 2)]
  pre := [.T 10141204801825835211973625643008, .T 8148143905337944345073782753637512644205873574663745002544561797417525199053346824733589504]
  follow := 4
  post := [[.T 8148143905337944345073782753637512644205873574663745002544561797417525199053346824733589504]]

/-- parse_n_keywords -/
def e316 : Entry where
  args := [some (.nat 1)]
  pre := [.T 16777216]
  follow := 260740604970814219042471907522408019713980905390727730037525484037397424273598873947070268424
  post := [[.T 16777216]]

/-- parse_expr -/
def e317 : Entry where
  args := [some (.nat 4294967295), some (.bool false), some (.bool false), some (.bool false), some (.bool true)]
  pre := [.T 24444431716013833035221607389709440909145710549390238663953313042748819551734042463597232128, .N .Post ALL, .T 32768, .T 590295810358705651712]
  follow := 260740604970814219042361209876080407518426722391330362199210019657139991670199335387312161856
  post := [[.T 590295810358705651712]]

/-- parse_exprs -/
def e318 : Entry where
  args := [some (.kws []), some (.bool true), some (.bool false)]
  pre := [.N .NamedExprs ALL]
  follow := 730750818665451459101842416358141509827970465792
  post := [[.T 24444431716013833035221607389709440909145710549390238663953313042748819551734042463597232128]]

/-- parse_pattern_clause -/
def e319 : Entry where
  args := []
  pre := [.T 730750818665451459101842416358141509827966271488, .N .PatternGroup ALL]
  follow := 1180591620717411303424
  post := [[.T 8]]

/-- parse_exprs -/
def e320 : Entry where
  args := [some (.kws []), some (.bool false), some (.bool true)]
  pre := [.N .TableArgs ALL]
  follow := 8
  post := [[.T 252592461065476274697297617982283077816063232948369510617060092383401536750486495353075925000]]

/-- parse_expr -/
def e321 : Entry where
  args := [some (.nat 4294967295), some (.bool false), some (.bool false), some (.bool false), some (.bool true)]
  pre := [.T 590295810358705651712]
  follow := 72
  post := [[.T 590295810358705651712]]

/-- parse_type -/
def e322 : Entry where
  args := [some (.bool true), some (.bool false)]
  pre := [.N .Type ALL]
  follow := 131136
  post := [[.T 24444431716013833035221607389709440909145710549390238664036389792485376793790530404864884744]]

/-- parse_type -/
def e323 : Entry where
  args := [some (.bool true), some (.bool false)]
  pre := [.T 268435456, .T 2048, .N .Type ALL, .T 131072]
  follow := 131136
  post := [[.T 131072]]

/-- parse_type -/
def e324 : Entry where
  args := [some (.bool true), some (.bool false)]
  pre := [.T 401734511064747568885490523085290650630550748445698208825344, .T 2048, .N .FieldList ALL, .T 131072]
  follow := 131136
  post := [[.T 131072]]

/-- parse_exprs -/
def e325 : Entry where
  args := [some (.kws [.sym_rparen]), some (.bool true), some (.bool true)]
  pre := [.N .SelectList ALL]
  follow := 8
  post := [[.T 252592461065476274697297617982283077816063232948369510617060092383401536750486495353075925016]]

/-- parse_expr -/
def e326 : Entry where
  args := [some (.nat 200), some (.bool false), some (.bool false), some (.bool false), some (.bool true)]
  pre := [.N .NotUnary ALL, .N .Tail ALL, .N .OrdOpt ALL]
  follow := 766247771860192802450272884702440521416558506036691016
  post := [[.T 252592461065476274697297617982283077816063232948369510617060092383401536750486495353075925000]]

/-- parse_groupby_exprs -/
def e327 : Entry where
  args := [some (.bool true)]
  pre := [.N .PipeGroupBy ALL]
  follow := 260740604970814219042471476057949053635186910483036272488665195260915532554589698779055653896
  post := [[.T 252592461065476274697297617982283077816063232948369510617060092383401536750486495353075925000]]

/-- parse_binary_operator -/
def e328 : Entry where
  args := [none]
  pre := [.T 32768, .T 590295810358705651712]
  follow := 260740604970814219042361209876080407518426722391330362199210019657139991670199335387312161856
  post := [[.T 590295810358705651712]]

/-- parse_expr -/
def e329 : Entry where
  args := [some (.nat 4294967295), some (.bool true), some (.bool false), some (.bool false), some (.bool false)]
  pre := [.N .Expr ALL, .T 536870912, .T 24444431716013833035221607389709440909145710549390238663953313042748819551734042463597232128]
  follow := 730750818665451459101842416358141509827970465856
  post := [[.T 24444431716013833035221607389709440909145710549390238663953313042748819551734042463597232128]]

/-- parse_pattern -/
def e330 : Entry where
  args := []
  pre := [.N .PatternGroup ALL]
  follow := 1180591620717411303424
  post := [[.T 8]]

/-- parse_expr -/
def e331 : Entry where
  args := [some (.nat 4294967295), some (.bool false), some (.bool false), some (.bool false), some (.bool true)]
  pre := [.T 803469022129495137770981046170581301261101496891396417650688, .N .TableName ALL]
  follow := 72
  post := [[.T 24444431716013833035224799134085933214511338101922373520359910946738660790437621736310571008]]

/-- parse_expr -/
def e332 : Entry where
  args := [some (.nat 4294967295), some (.bool false), some (.bool false), some (.bool false), some (.bool true)]
  pre := [.T 174224571863520493293247799005065324265472, .N .TableName ALL]
  follow := 72
  post := [[.T 24444431716013833035224799134085933214511338101922373520359910946738660790437621736310571008]]

/-- parse_expr -/
def e333 : Entry where
  args := [some (.natB 112), some (.bool false), some (.bool false), some (.bool false), some (.bool true)]
  pre := [.T 590295810358705651712]
  follow := 260740604970814219042361209876080407518426722391330362199210019657139991670199335387312161856
  post := [[.T 590295810358705651712]]

/-- parse_expr -/
def e334 : Entry where
  args := [some (.nat 4294967295), some (.bool true), some (.bool false), some (.bool false), some (.bool true)]
  pre := [.N .Expr ALL, .T 536870912, .T 24444431716013833035221607389709440909145710549390238663953313042748819551734042463597232128]
  follow := 730750818665451459101842416358141509827970465856
  post := [[.T 24444431716013833035221607389709440909145710549390238663953313042748819551734042463597232128]]

/-- parse_grouped_pattern -/
def e335 : Entry where
  args := []
  pre := [.N .PatternGroup ALL]
  follow := 24444431716013833035276562231686862442917098770889451211253294264029939870192961385403514940
  post := [[.T 8]]

/-- parse_expr -/
def e336 : Entry where
  args := [some (.nat 2), some (.bool false), some (.bool true), some (.bool false), some (.bool true)]
  pre := [.N .TableName ALL]
  follow := 72
  post := [[.T 24444431716013833035224799134085933214511338101922373520359910946738660790437621736310571008]]

/-- parse_pattern -/
def e337 : Entry where
  args := []
  pre := [.N .PatternUnit ALL]
  follow := 24444431716013833035276562231686862442917098770889451211253294264029938689601340667991162892
  post := [[.T 24444431716013833035221348260912537932617620723991235007633685392252575597160040474201817144]]

/-- parse_exprs -/
def e338 : Entry where
  args := [some (.kws []), some (.bool true), some (.bool false)]
  pre := [.N .Definitions ALL]
  follow := 356811923176489970264571492362373784095686664
  post := [[.T 252592461065476274697297617982283077816063232948369510617060092383401536750486495353075925000]]

/-- parse_expr -/
def e339 : Entry where
  args := [some (.nat 4294967295), some (.bool true), some (.bool false), some (.bool false), some (.bool false)]
  pre := [.T 24444431716013833035221348260912537932617620723991235007633685392252575597160040474200768512, .T 536870912, .N .Expr ALL]
  follow := 356811923176489970264571492362373784095686728
  post := [[.T 252592461065476274697297617982283077816063232948369510617060092383401536750486495353075925000]]

/-- The summaries of the functions. -/
def acceptTab : Fn → List Entry
  | .parse_statement => [e2, e1, e0, e185, e187, e186]
  | .parse_select_statement => [e270, e271, e269, e148, e60, e3, e61, e4, e141, e238, e118, e119, e213, e212, e214]
  | .parse_from_statement => [e62, e5, e63, e6]
  | .parse_insert_statement => [e298, e299, e65, e8, e64, e7]
  | .parse_delete_statement => [e66, e9]
  | .parse_truncate_statement => [e67, e10]
  | .parse_update_statement => [e297, e68, e11]
  | .parse_merge_statement => [e69, e12]
  | .parse_create_schema_statement => [e70, e13]
  | .parse_create_function_statement => [e72, e15, e71, e14]
  | .parse_create_table_statement => [e74, e17, e73, e16]
  | .parse_create_view_statement => [e76, e19, e75, e18]
  | .parse_create_procedure_statement => [e77, e20]
  | .parse_create_row_access_policy_statement => [e78, e21]
  | .parse_create_reservation_statement => [e79, e22]
  | .parse_create_search_index_statement => [e80, e23]
  | .parse_create_model_statement => [e81, e24]
  | .parse_alter_schema_statement => [e82, e25]
  | .parse_alter_table_statement => [e83, e26]
  | .parse_alter_column_statement => [e236, e84, e27]
  | .parse_alter_view_statement => [e85, e28]
  | .parse_alter_vector_index_statement => [e86, e29]
  | .parse_alter_organization_statement => [e87, e30]
  | .parse_alter_project_statement => [e88, e31]
  | .parse_alter_bicapacity_statement => [e89, e32]
  | .parse_alter_reservation_statement => [e90, e33, e91, e34]
  | .parse_alter_model_statement => [e92, e35]
  | .parse_drop_row_access_policy_statement => [e93, e36]
  | .parse_drop_statement_general => [e94, e37]
  | .parse_undrop_statement => [e95, e38]
  | .parse_grant_statement => [e96, e39]
  | .parse_revoke_statement => [e97, e40]
  | .parse_declare_statement => [e98, e41]
  | .parse_set_statement => [e99, e42]
  | .parse_execute_statement => [e100, e43]
  | .parse_if_statement => [e101, e44]
  | .parse_transaction_statement => [e102, e45]
  | .parse_begin_statement => [e288, e103, e46]
  | .parse_case_statement => [e104, e47]
  | .parse_load_statement => [e105, e48]
  | .parse_loop_statement => [e106, e49]
  | .parse_repeat_statement => [e107, e50]
  | .parse_while_statement => [e108, e51]
  | .parse_for_statement => [e110, e52]
  | .parse_raise_statement => [e111, e53]
  | .parse_single_token_statement => [e112, e54]
  | .parse_call_statement => [e113, e55]
  | .parse_assert_satement => [e114, e56]
  | .parse_export_data_statement => [e116, e58, e115, e57]
  | .parse_export_model_statement => [e117, e59]
  | .parse_break_continue_statement => [e109]
  | .parse_with_clause => [e120]
  | .parse_keyword_with_grouped_exprs => [e121, e230, e231, e300]
  | .parse_exprs => [e155, e188, e137, e309, e277, e282, e242, e307, e163, e249, e306, e310, e180, e165, e164, e123, e122, e325, e308, e320, e166, e318, e338, e311, e193]
  | .parse_table => [e228, e127, e126, e149, e276, e124, e273]
  | .parse_identifier => [e221, e125]
  | .parse_n_keywords => [e313, e314, e136, e316, e315, e129, e128, e131, e130, e285, e286, e227, e132, e134, e135, e184, e248, e182, e218]
  | .parse_expr => [e241, e278, e133, e326, e237, e190, e160, e191, e161, e303, e195, e245, e302, e192, e162, e169, e197, e196, e168, e336, e152, e295, e296, e151, e150, e312, e251, e246, e339, e250, e334, e329, e239, e240, e147, e206, e244, e243, e194, e331, e332, e321, e333, e317, e305, e279]
  | .parse_keyword_with_statements => [e181, e138, e247, e139, e140, e183]
  | .parse_with_connection_clause => [e142]
  | .parse_cte => [e143, e233, e290, e144]
  | .parse_grouped_exprs => [e146, e189, e145, e222, e289]
  | .parse_single_or_multi_token_identifier => [e281, e153]
  | .parse_type => [e234, e293, e292, e291, e324, e157, e158, e323, e154, e322, e156, e159, e283, e287, e284]
  | .parse_window_expr => [e167]
  | .parse_binary_operator => [e198, e170, e304, e199, e171, e201, e173, e203, e175, e200, e172, e301, e328]
  | .parse_is_distinct_from_operator => [e202, e174]
  | .parse_between_operator => [e204, e176]
  | .parse_in_operator => [e177, e178, e205, e179]
  | .parse_xxxby_exprs => [e207, e225, e226]
  | .parse_pipe_statement => [e211, e208]
  | .parse_set_operator => [e209, e210]
  | .push_trailing_alias => [e215, e216]
  | .parse_pivot_config_clause => [e217]
  | .parse_unpivot_config_clause => [e219]
  | .parse_match_recognize_clause => [e220]
  | .parse_grouped_type_declaration_or_constraints => [e232, e224, e223, e229]
  | .parse_constraint => [e235]
  | .parse_base_pipe_operator => [e252, e253]
  | .parse_select_pipe_operator => [e254]
  | .parse_limit_pipe_operator => [e256, e255]
  | .parse_aggregate_pipe_operator => [e257]
  | .parse_union_pipe_operator => [e258]
  | .parse_join_pipe_operator => [e259]
  | .parse_tablesample_pipe_operator => [e260]
  | .parse_pivot_pipe_operator => [e261]
  | .parse_unpivot_pipe_operator => [e262]
  | .parse_with_pipe_operator => [e263]
  | .parse_match_recognize_pipe_operator => [e264]
  | .parse_by_name_clause => [e266, e265]
  | .parse_corresponding_clause => [e267, e268]
  | .parse_table_sample_ratio => [e272]
  | .parse_groupby_exprs => [e274, e327]
  | .parse_window_clause => [e275]
  | .parse_match_recognize_config => [e280]
  | .parse_enforced => [e294]
  | .parse_pattern_clause => [e319]
  | .parse_pattern => [e330, e337]
  | .parse_grouped_pattern => [e335]
  | _ => []

end Verif.GI
