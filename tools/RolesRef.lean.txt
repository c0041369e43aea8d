import Verif.Analysis.RoleBase
/-! Stands in for Verif.Analysis.Roles in tools/GenTable.lean.txt: the table of roles is read from a reference. -/
namespace Verif.AI
initialize rolesRef : IO.Ref (Array (List Role)) ← IO.mkRef (Array.replicate 256 [])
@[export verif_roles_set] def setRoles (t : NodeType) (l : List Role) : BaseIO Unit := rolesRef.modify (·.set! t.ctorIdx l)
@[export verif_roles_get] def getRoles (t : NodeType) : BaseIO (List Role) := do return (← rolesRef.get)[t.ctorIdx]!
unsafe def roles (t : NodeType) : List Role := match unsafeBaseIO (getRoles t) with
  | l => l
end Verif.AI
