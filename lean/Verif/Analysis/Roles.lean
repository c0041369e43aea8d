import Verif.Analysis.RoleBase
/-! Generated by tools/GenTable.lean.txt: the table of Verif.Spec.Roles as bit masks (checked in
Verif.Proofs.RoleMasks). -/
namespace Verif.AI

/-- The roles of the children of each type of nodes. -/
@[noinline] def roles : NodeType → List Role
  | .AccessOperator => [
    ⟨4, 8148143905337944345073782753637512644205873574663745002544561797417525199053346824733589503, 1606938044258990275541962092341162602522202993782792835301375, 8148143905337944345073782753637512644205873574663745002544561797417525199053346824733589503, 2037035976334486086268445688409378161051468393665936229036185517849498365076471976493579759, []⟩,
    ⟨9, 8148143905337944345073782753637512644205873574663745002544561797417525199053346824733589503, 1180591620717411303424, 536870912, 2037035976334486086268445688409378161051468393665936250636140449354381299763336706183397375, [⟨70, 0, 536870912⟩]⟩,
    ⟨27, 8148143905337944345073782753637512644205873574663745002544561797417525199053346824733589503, 2658455991569831745807614120560689152, 64, 2037035976334486086268445688409378161051468393665936250636140449354381299763336706183397375, [⟨121, 0, 64⟩]⟩,
    ⟨72, 8148143905337944345073782753637512644205873574663745002544561797417525199053346824733589503, 144115188075855872, 39614081257132168796771975168, 2037035976334486086268445688409378161051468393665936250636140449354381299763336706183397375, []⟩,
    ⟨104, 8148143905337944345073782753637512644205873574663745002544561797417525199053346824733589503, 1606938044258990275541962092341162602522202993782792835301375, 8148143905337944345073782753637512644205873574663745002544561797417525199053346824733589503, 2037035976334486086268445688409378161051468393665936229036185517849498365076471976493579759, []⟩,
    ⟨107, 8148143905337944345073782753637512644205873574663745002544561797417525199053346824733589503, 2475880078570760549798248448, 10889035741470030830827987437816582766592, 2037035976334486086268445688409378161051468393665936250636140449354381299763336706183397375, []⟩,
    ⟨118, 8148143905337944345073782753637512644205873574663745002544561797417525199053346824733589503, 1180591620717411303424, 8148143905337944345073782753637512644205873574663745002544561797417525199053346824733589503, 2037035976334486086268445688409378161051468393665936250636140449354381299763336706183397375, []⟩,
    ⟨124, 8148143905337944345073782753637512644205873574663745002544561797417525199053346824733589503, 1180591620717411303424, 4722366482870718955520, 2037035976334486086268445688409378161051468393665936250636140449354381299763336706183397375, [⟨70, 0, 4722366482870718955520⟩]⟩,
    ⟨137, 8148143905337944345073782753637512644205873574663745002544561797417525199053346824733589503, 162259276829213363391578010288128, 1461501637330902918203684832716283019655932542976, 2037035976334486086268445688409378161051468393665936250636140449354381299763336706183397375, []⟩,
    ⟨154, 8148143905337944345073782753637512644205873574663745002544561797417525199053346824733589503, 1606938044258990275541962092341162602522202993782792835301375, 8148143905337944345073782753637512644205873574663745002544561797417525199053346824733589503, 2037035976334486086268445688409378161051468393665936250636140449354381299763336706049179119, []⟩,
    ⟨158, 8148143905337944345073782753637512644205873574663745002544561797417525199053346824733589503, 1606938044258990275541962092341162602522202993782792835301375, 8148143905337944345073782753637512644205873574663745002544561797417525199053346824733589503, 2037035976334486086268445688409378161051468393665936250636140449354381299763336706049179119, []⟩,
    ⟨159, 8148143905337944345073782753637512644205873574663745002544561797417525199053346824733589503, 2658455991569831745807614120560689152, 8148143905337944345073782753637512644205873574663745002544561797417525199053346824733589503, 2037035976334486086268445688409378161051468393665936250636140449354381299763336706183397375, []⟩,
    ⟨176, 8148143905337944345073782753637512644205873574663745002544561797417525199053346824733589503, 5316911983139663491615228241121378304, 1606938044258990275541962092341162602522202993782792835301376, 2037035976334486086268445688409378161051468393665936250636140449354381299763336706183397375, []⟩,
    ⟨192, 8148143905337944345073782753637512644205873574663745002544561797417525199053346824733589503, 43556142965880123323311949751266331066368, 421249166674228746791672110734681729275580381602196445017243910144, 2037035976334486086268445688409378161051468393665936250636140449354381299763336706183397375, []⟩,
    ⟨203, 8148143905337944345073782753637512644205873574663745002544561797417525199053346824733589503, 89202980794122492566142873090593446023921664, 862718293348820473429344482784628181556388621521298319395315527974912, 2037035976334486086268445688409378161051468393665936250636140449354381299763336706183397375, []⟩]
  | .AddColumnClause => [
    ⟨27, 8148143905337944345073782753637512644205873574663745002544561797417525199053346824733589503, 2658455991569831745807614120560689152, 64, 2037035976334486086268445688409378161051468393665936250636140449354381299763336706183397375, [⟨121, 0, 64⟩]⟩,
    ⟨87, 8148143905337944345073782753637512644205873574663745002544561797417525199053346824733589503, 1180591620717411303424, 8148143905337944345073782753637512644205873574663745002544561797417525199053346824733589503, 2037035976334486086268445688409378161051468393665936250636140449354381299763336706183397375, []⟩,
    ⟨191, 8148143905337944345073782753637512644205873574663745002544561797417525199053346824733589503, 1361129467683753853853498429727072845824, 8148143905337944345073782753637512644205873574663745002544561797417525199053346824733589503, 2037035976334486086268445688409378161051468393665936250636140449354381299763336706049179647, []⟩,
    ⟨196, 8148143905337944345073782753637512644205873574663745002544561797417525199053346824733589503, 1180591620717411303424, 8148143905337944345073782753637512644205873574663745002544561797417525199053346824733589503, 2037035976334486086268445688409378161051468393665936250636140449354381299763336706183397375, []⟩]
  | .AddConstraintClause => [
    ⟨27, 8148143905337944345073782753637512644205873574663745002544561797417525199053346824733589503, 2658455991569831745807614120560689152, 64, 2037035976334486086268445688409378161051468393665936250636140449354381299763336706183397375, [⟨121, 0, 64⟩]⟩,
    ⟨196, 8148143905337944345073782753637512644205873574663745002544561797417525199053346824733589503, 268435456, 8148143905337944345073782753637512644205873574663745002544561797417525199053346824733589503, 2037035976334486086268445688409378161051468393665936250636140449354381299763336706049179647, []⟩]
  | .AggregatePipeOperator => [
    ⟨80, 8148143905337944345073782753637512644205873574663745002544561797417525199053346824733589503, 4611686018427387904, 5070602400912917605986812821504, 2037035976334486086268445688409378161051468393665936250636140449354381299763336706183397375, []⟩,
    ⟨99, 8148143905337944345073782753637512644205873574663745002544561797417525199053346824733589503, 0, 0, 2037035976334486086268445688409378161051466932164298557850900393226202185418844888792825327, []⟩]
  | .AlterColumnStatement => [
    ⟨21, 8148143905337944345073782753637512644205873574663745002544561797417525199053346824733589503, 2658455991569831745807614120560689152, 8148143905337944345073782753637512644205873574663745002544561797417525199053346824733589503, 2037035976334486086268445688409378161051468393665936250636140449354381299763336706183397375, []⟩,
    ⟨36, 8148143905337944345073782753637512644205873574663745002544561797417525199053346824733589503, 1180591620717411303424, 8148143905337944345073782753637512644205873574663745002544561797417525199053346824733589503, 2037035976334486086268445688409378161051468393665936250636140449354381299763336706183397375, []⟩,
    ⟨39, 8148143905337944345073782753637512644205873574663745002544561797417525199053346824733589503, 4722366482869645213696, 8148143905337944345073782753637512644205873574663745002544561797417525199053346824733589503, 2037035976334486086268445688409378161051468393665936250636140449354381299763336706183397375, []⟩,
    ⟨50, 8148143905337944345073782753637512644205873574663745002544561797417525199053346824733589503, 1180591620717411303424, 8148143905337944345073782753637512644205873574663745002544561797417525199053346824733589503, 2037035976334486086268445688409378161051468393665936250636140449354381299763336706183397375, []⟩,
    ⟨51, 8148143905337944345073782753637512644205873574663745002544561797417525199053346824733589503, 1180591620717411303424, 8148143905337944345073782753637512644205873574663745002544561797417525199053346824733589503, 2037035976334486086268445688409378161051468393665936250636140449354381299763336706183397375, []⟩,
    ⟨84, 8148143905337944345073782753637512644205873574663745002544561797417525199053346824733589503, 302231454903657293676544, 8148143905337944345073782753637512644205873574663745002544561797417525199053346824733589503, 2037035976334486086268445688409378161051468393665936229036185517849498365076471976493579759, []⟩,
    ⟨86, 8148143905337944345073782753637512644205873574663745002544561797417525199053346824733589503, 1180591620717411303424, 8148143905337944345073782753637512644205873574663745002544561797417525199053346824733589503, 2037035976334486086268445688409378161051468393665936250636140449354381299763336706183397375, []⟩,
    ⟨103, 8148143905337944345073782753637512644205873574663745002544561797417525199053346824733589503, 302231454903657293676544, 8148143905337944345073782753637512644205873574663745002544561797417525199053346824733589503, 2037035976334486086268445688409378161051468393665936229036185517849498365076471976493579759, []⟩,
    ⟨122, 8148143905337944345073782753637512644205873574663745002544561797417525199053346824733589503, 37778931862957161709568, 356811923176489970264571492362373784095686656, 2037035976334486086268445688409378161051468393665936250636140449354381299763336706183397375, [⟨75, 0, 356811923176489970264571492362373784095686656⟩]⟩,
    ⟨160, 8148143905337944345073782753637512644205873574663745002544561797417525199053346824733589503, 2658455991569831745807614120560689152, 1024, 2037035976334486086268445688409378161051468393665936250636140449354381299763336706183397375, [⟨121, 0, 1024⟩]⟩,
    ⟨161, 8148143905337944345073782753637512644205873574663745002544561797417525199053346824733589503, 1180591620717411303424, 12554203470773361527671578846415332832204710888928069025792, 2037035976334486086268445688409378161051468393665936250636140449354381299763336706183397375, [⟨70, 0, 12554203470773361527671578846415332832204710888928069025792⟩]⟩,
    ⟨185, 8148143905337944345073782753637512644205873574663745002544561797417525199053346824733589503, 302231454903657293676544, 8148143905337944345073782753637512644205873574663745002544561797417525199053346824733589503, 2037035976334486086268445688409378161051468393665936229036185517849498365076471976493579759, []⟩,
    ⟨190, 8148143905337944345073782753637512644205873574663745002544561797417525199053346824733589503, 680564733841876926926749214863536422912, 8148143905337944345073782753637512644205873574663745002544561797417525199053346824733589503, 2037035976334486086268445688409378161051468393665936250636140449354381299763336706183397375, []⟩,
    ⟨196, 8148143905337944345073782753637512644205873574663745002544561797417525199053346824733589503, 1180591620717411303424, 8148143905337944345073782753637512644205873574663745002544561797417525199053346824733589503, 2037035976334486086268445688409378161051468393665936250636140449354381299763336706183397375, []⟩]
  | .AlterBICapacityStatement => [
    ⟨21, 8148143905337944345073782753637512644205873574663745002544561797417525199053346824733589503, 2658455991569831745807614120560689152, 8148143905337944345073782753637512644205873574663745002544561797417525199053346824733589503, 2037035976334486086268445688409378161051468393665936250636140449354381299763336706183397375, []⟩,
    ⟨84, 8148143905337944345073782753637512644205873574663745002544561797417525199053346824733589503, 39614383488587213191554007040, 8148143905337944345073782753637512644205873574663745002544561797417525199053346824733589503, 2037035976334486086268445688409378161051468393665936229036185517849498365076471976493579759, []⟩,
    ⟨103, 8148143905337944345073782753637512644205873574663745002544561797417525199053346824733589503, 302231454903657293676544, 8148143905337944345073782753637512644205873574663745002544561797417525199053346824733589503, 2037035976334486086268445688409378161051468393665936229036185517849498365076471976493579759, []⟩,
    ⟨122, 8148143905337944345073782753637512644205873574663745002544561797417525199053346824733589503, 37778931862957161709568, 8148143905337944345073782753637512644205873574663745002544561797417525199053346824733589503, 2037035976334486086268445688409378161051468393665936250636140449354381299763336706183397375, []⟩,
    ⟨160, 8148143905337944345073782753637512644205873574663745002544561797417525199053346824733589503, 2658455991569831745807614120560689152, 1024, 2037035976334486086268445688409378161051468393665936250636140449354381299763336706183397375, [⟨121, 0, 1024⟩]⟩,
    ⟨161, 8148143905337944345073782753637512644205873574663745002544561797417525199053346824733589503, 1180591620717411303424, 8148143905337944345073782753637512644205873574663745002544561797417525199053346824733589503, 2037035976334486086268445688409378161051468393665936250636140449354381299763336706183397375, []⟩,
    ⟨185, 8148143905337944345073782753637512644205873574663745002544561797417525199053346824733589503, 302231454903657293676544, 8148143905337944345073782753637512644205873574663745002544561797417525199053346824733589503, 2037035976334486086268445688409378161051468393665936229036185517849498365076471976493579759, []⟩,
    ⟨196, 8148143905337944345073782753637512644205873574663745002544561797417525199053346824733589503, 1180591620717411303424, 8148143905337944345073782753637512644205873574663745002544561797417525199053346824733589503, 2037035976334486086268445688409378161051468393665936250636140449354381299763336706183397375, []⟩]
  | .AlterModelStatement => [
    ⟨21, 8148143905337944345073782753637512644205873574663745002544561797417525199053346824733589503, 2658455991569831745807614120560689152, 8148143905337944345073782753637512644205873574663745002544561797417525199053346824733589503, 2037035976334486086268445688409378161051468393665936250636140449354381299763336706183397375, []⟩,
    ⟨84, 8148143905337944345073782753637512644205873574663745002544561797417525199053346824733589503, 39614383488587213191554007040, 8148143905337944345073782753637512644205873574663745002544561797417525199053346824733589503, 2037035976334486086268445688409378161051468393665936229036185517849498365076471976493579759, []⟩,
    ⟨86, 8148143905337944345073782753637512644205873574663745002544561797417525199053346824733589503, 1180591620717411303424, 8148143905337944345073782753637512644205873574663745002544561797417525199053346824733589503, 2037035976334486086268445688409378161051468393665936250636140449354381299763336706183397375, []⟩,
    ⟨103, 8148143905337944345073782753637512644205873574663745002544561797417525199053346824733589503, 302231454903657293676544, 8148143905337944345073782753637512644205873574663745002544561797417525199053346824733589503, 2037035976334486086268445688409378161051468393665936229036185517849498365076471976493579759, []⟩,
    ⟨122, 8148143905337944345073782753637512644205873574663745002544561797417525199053346824733589503, 37778931862957161709568, 8148143905337944345073782753637512644205873574663745002544561797417525199053346824733589503, 2037035976334486086268445688409378161051468393665936250636140449354381299763336706183397375, []⟩,
    ⟨160, 8148143905337944345073782753637512644205873574663745002544561797417525199053346824733589503, 2658455991569831745807614120560689152, 1024, 2037035976334486086268445688409378161051468393665936250636140449354381299763336706183397375, [⟨121, 0, 1024⟩]⟩,
    ⟨161, 8148143905337944345073782753637512644205873574663745002544561797417525199053346824733589503, 1180591620717411303424, 8148143905337944345073782753637512644205873574663745002544561797417525199053346824733589503, 2037035976334486086268445688409378161051468393665936250636140449354381299763336706183397375, []⟩,
    ⟨185, 8148143905337944345073782753637512644205873574663745002544561797417525199053346824733589503, 302231454903657293676544, 8148143905337944345073782753637512644205873574663745002544561797417525199053346824733589503, 2037035976334486086268445688409378161051468393665936229036185517849498365076471976493579759, []⟩,
    ⟨196, 8148143905337944345073782753637512644205873574663745002544561797417525199053346824733589503, 1180591620717411303424, 8148143905337944345073782753637512644205873574663745002544561797417525199053346824733589503, 2037035976334486086268445688409378161051468393665936250636140449354381299763336706183397375, []⟩]
  | .AlterOrganizationStatement => [
    ⟨21, 8148143905337944345073782753637512644205873574663745002544561797417525199053346824733589503, 2658455991569831745807614120560689152, 8148143905337944345073782753637512644205873574663745002544561797417525199053346824733589503, 2037035976334486086268445688409378161051468393665936250636140449354381299763336706183397375, []⟩,
    ⟨103, 8148143905337944345073782753637512644205873574663745002544561797417525199053346824733589503, 302231454903657293676544, 8148143905337944345073782753637512644205873574663745002544561797417525199053346824733589503, 2037035976334486086268445688409378161051468393665936229036185517849498365076471976493579759, []⟩,
    ⟨122, 8148143905337944345073782753637512644205873574663745002544561797417525199053346824733589503, 37778931862957161709568, 8148143905337944345073782753637512644205873574663745002544561797417525199053346824733589503, 2037035976334486086268445688409378161051468393665936250636140449354381299763336706183397375, []⟩,
    ⟨160, 8148143905337944345073782753637512644205873574663745002544561797417525199053346824733589503, 2658455991569831745807614120560689152, 1024, 2037035976334486086268445688409378161051468393665936250636140449354381299763336706183397375, [⟨121, 0, 1024⟩]⟩,
    ⟨161, 8148143905337944345073782753637512644205873574663745002544561797417525199053346824733589503, 1180591620717411303424, 8148143905337944345073782753637512644205873574663745002544561797417525199053346824733589503, 2037035976334486086268445688409378161051468393665936250636140449354381299763336706183397375, []⟩,
    ⟨185, 8148143905337944345073782753637512644205873574663745002544561797417525199053346824733589503, 302231454903657293676544, 8148143905337944345073782753637512644205873574663745002544561797417525199053346824733589503, 2037035976334486086268445688409378161051468393665936229036185517849498365076471976493579759, []⟩,
    ⟨196, 8148143905337944345073782753637512644205873574663745002544561797417525199053346824733589503, 1180591620717411303424, 8148143905337944345073782753637512644205873574663745002544561797417525199053346824733589503, 2037035976334486086268445688409378161051468393665936250636140449354381299763336706183397375, []⟩]
  | .AlterTableDropClause => [
    ⟨27, 8148143905337944345073782753637512644205873574663745002544561797417525199053346824733589503, 2658455991569831745807614120560689152, 64, 2037035976334486086268445688409378161051468393665936250636140449354381299763336706183397375, [⟨121, 0, 64⟩]⟩,
    ⟨84, 8148143905337944345073782753637512644205873574663745002544561797417525199053346824733589503, 39614383488587213191554007040, 8148143905337944345073782753637512644205873574663745002544561797417525199053346824733589503, 2037035976334486086268445688409378161051468393665936229036185517849498365076471976493579759, []⟩,
    ⟨86, 8148143905337944345073782753637512644205873574663745002544561797417525199053346824733589503, 1180591620717411303424, 8148143905337944345073782753637512644205873574663745002544561797417525199053346824733589503, 2037035976334486086268445688409378161051468393665936250636140449354381299763336706183397375, []⟩,
    ⟨196, 8148143905337944345073782753637512644205873574663745002544561797417525199053346824733589503, 5902958103587056517120, 8148143905337944345073782753637512644205873574663745002544561797417525199053346824733589503, 2037035976334486086268445688409378161051468393665936250636140449354381299763336706183397375, [⟨72, 0, 5846006549323611672814739330865132078623730171904⟩]⟩]
  | .AlterProjectStatement => [
    ⟨21, 8148143905337944345073782753637512644205873574663745002544561797417525199053346824733589503, 2658455991569831745807614120560689152, 8148143905337944345073782753637512644205873574663745002544561797417525199053346824733589503, 2037035976334486086268445688409378161051468393665936250636140449354381299763336706183397375, []⟩,
    ⟨84, 8148143905337944345073782753637512644205873574663745002544561797417525199053346824733589503, 39614383488587213191554007040, 8148143905337944345073782753637512644205873574663745002544561797417525199053346824733589503, 2037035976334486086268445688409378161051468393665936229036185517849498365076471976493579759, []⟩,
    ⟨103, 8148143905337944345073782753637512644205873574663745002544561797417525199053346824733589503, 302231454903657293676544, 8148143905337944345073782753637512644205873574663745002544561797417525199053346824733589503, 2037035976334486086268445688409378161051468393665936229036185517849498365076471976493579759, []⟩,
    ⟨122, 8148143905337944345073782753637512644205873574663745002544561797417525199053346824733589503, 37778931862957161709568, 8148143905337944345073782753637512644205873574663745002544561797417525199053346824733589503, 2037035976334486086268445688409378161051468393665936250636140449354381299763336706183397375, []⟩,
    ⟨160, 8148143905337944345073782753637512644205873574663745002544561797417525199053346824733589503, 2658455991569831745807614120560689152, 1024, 2037035976334486086268445688409378161051468393665936250636140449354381299763336706183397375, [⟨121, 0, 1024⟩]⟩,
    ⟨161, 8148143905337944345073782753637512644205873574663745002544561797417525199053346824733589503, 1180591620717411303424, 8148143905337944345073782753637512644205873574663745002544561797417525199053346824733589503, 2037035976334486086268445688409378161051468393665936250636140449354381299763336706183397375, []⟩,
    ⟨185, 8148143905337944345073782753637512644205873574663745002544561797417525199053346824733589503, 302231454903657293676544, 8148143905337944345073782753637512644205873574663745002544561797417525199053346824733589503, 2037035976334486086268445688409378161051468393665936229036185517849498365076471976493579759, []⟩,
    ⟨196, 8148143905337944345073782753637512644205873574663745002544561797417525199053346824733589503, 1180591620717411303424, 8148143905337944345073782753637512644205873574663745002544561797417525199053346824733589503, 2037035976334486086268445688409378161051468393665936250636140449354381299763336706183397375, []⟩]
  | .AlterReservationStatement => [
    ⟨21, 8148143905337944345073782753637512644205873574663745002544561797417525199053346824733589503, 2658455991569831745807614120560689152, 8148143905337944345073782753637512644205873574663745002544561797417525199053346824733589503, 2037035976334486086268445688409378161051468393665936250636140449354381299763336706183397375, []⟩,
    ⟨84, 8148143905337944345073782753637512644205873574663745002544561797417525199053346824733589503, 39614383488587213191554007040, 8148143905337944345073782753637512644205873574663745002544561797417525199053346824733589503, 2037035976334486086268445688409378161051468393665936229036185517849498365076471976493579759, []⟩,
    ⟨103, 8148143905337944345073782753637512644205873574663745002544561797417525199053346824733589503, 302231454903657293676544, 8148143905337944345073782753637512644205873574663745002544561797417525199053346824733589503, 2037035976334486086268445688409378161051468393665936229036185517849498365076471976493579759, []⟩,
    ⟨122, 8148143905337944345073782753637512644205873574663745002544561797417525199053346824733589503, 37778931862957161709568, 8148143905337944345073782753637512644205873574663745002544561797417525199053346824733589503, 2037035976334486086268445688409378161051468393665936250636140449354381299763336706183397375, []⟩,
    ⟨160, 8148143905337944345073782753637512644205873574663745002544561797417525199053346824733589503, 2658455991569831745807614120560689152, 1024, 2037035976334486086268445688409378161051468393665936250636140449354381299763336706183397375, [⟨121, 0, 1024⟩]⟩,
    ⟨161, 8148143905337944345073782753637512644205873574663745002544561797417525199053346824733589503, 1180591620717411303424, 8148143905337944345073782753637512644205873574663745002544561797417525199053346824733589503, 2037035976334486086268445688409378161051468393665936250636140449354381299763336706183397375, []⟩,
    ⟨185, 8148143905337944345073782753637512644205873574663745002544561797417525199053346824733589503, 302231454903657293676544, 8148143905337944345073782753637512644205873574663745002544561797417525199053346824733589503, 2037035976334486086268445688409378161051468393665936229036185517849498365076471976493579759, []⟩,
    ⟨196, 8148143905337944345073782753637512644205873574663745002544561797417525199053346824733589503, 1180591620717411303424, 8148143905337944345073782753637512644205873574663745002544561797417525199053346824733589503, 2037035976334486086268445688409378161051468393665936250636140449354381299763336706183397375, []⟩]
  | .AlterSchemaStatement => [
    ⟨0, 8148143905337944345073782753637512644205873574663745002544561797417525199053346824733589503, 2361183241434822606848, 2097152, 2037035976334486086268445688409378161051468393665936250636140449354381299763336706183397375, [⟨71, 41538374868278621028243970633760768, 2097152⟩]⟩,
    ⟨21, 8148143905337944345073782753637512644205873574663745002544561797417525199053346824733589503, 2658455991569831745807614120560689152, 8148143905337944345073782753637512644205873574663745002544561797417525199053346824733589503, 2037035976334486086268445688409378161051468393665936250636140449354381299763336706183397375, []⟩,
    ⟨40, 8148143905337944345073782753637512644205873574663745002544561797417525199053346824733589503, 2361183241434822606848, 590295810358705651712, 2037035976334486086268445688409378161051468393665936250636140449354381299763336706183397375, [⟨71, 41538374868278621028243970633760768, 590295810358705651712⟩]⟩,
    ⟨48, 8148143905337944345073782753637512644205873574663745002544561797417525199053346824733589503, 2361183241434822606848, 37778931862957161709568, 2037035976334486086268445688409378161051468393665936250636140449354381299763336706183397375, [⟨71, 41538374868278621028243970633760768, 37778931862957161709568⟩]⟩,
    ⟨84, 8148143905337944345073782753637512644205873574663745002544561797417525199053346824733589503, 39614383488587213191554007040, 8148143905337944345073782753637512644205873574663745002544561797417525199053346824733589503, 2037035976334486086268445688409378161051468393665936229036185517849498365076471976493579759, []⟩,
    ⟨86, 8148143905337944345073782753637512644205873574663745002544561797417525199053346824733589503, 1180591620717411303424, 8148143905337944345073782753637512644205873574663745002544561797417525199053346824733589503, 2037035976334486086268445688409378161051468393665936250636140449354381299763336706183397375, []⟩,
    ⟨103, 8148143905337944345073782753637512644205873574663745002544561797417525199053346824733589503, 302231454903657293676544, 8148143905337944345073782753637512644205873574663745002544561797417525199053346824733589503, 2037035976334486086268445688409378161051468393665936229036185517849498365076471976493579759, []⟩,
    ⟨122, 8148143905337944345073782753637512644205873574663745002544561797417525199053346824733589503, 37778931862957161709568, 356811923176489970264571492362373784095686656, 2037035976334486086268445688409378161051468393665936250636140449354381299763336706183397375, [⟨75, 0, 356811923176489970264571492362373784095686656⟩]⟩,
    ⟨160, 8148143905337944345073782753637512644205873574663745002544561797417525199053346824733589503, 2658455991569831745807614120560689152, 1024, 2037035976334486086268445688409378161051468393665936250636140449354381299763336706183397375, [⟨121, 0, 1024⟩]⟩,
    ⟨161, 8148143905337944345073782753637512644205873574663745002544561797417525199053346824733589503, 1180591620717411303424, 12554203470773361527671578846415332832204710888928069025792, 2037035976334486086268445688409378161051468393665936250636140449354381299763336706183397375, [⟨70, 0, 12554203470773361527671578846415332832204710888928069025792⟩]⟩,
    ⟨185, 8148143905337944345073782753637512644205873574663745002544561797417525199053346824733589503, 302231454903657293676544, 8148143905337944345073782753637512644205873574663745002544561797417525199053346824733589503, 2037035976334486086268445688409378161051468393665936229036185517849498365076471976493579759, []⟩,
    ⟨196, 8148143905337944345073782753637512644205873574663745002544561797417525199053346824733589503, 1180591620717411303424, 8148143905337944345073782753637512644205873574663745002544561797417525199053346824733589503, 2037035976334486086268445688409378161051468393665936250636140449354381299763336706183397375, []⟩]
  | .AlterTableStatement => [
    ⟨1, 8148143905337944345073782753637512644205873574663745002544561797417525199053346824733589503, 2, 2097152, 2037035976334486086268445688409378161051468393665936250636140449354381299763336706183397375, []⟩,
    ⟨2, 8148143905337944345073782753637512644205873574663745002544561797417525199053346824733589503, 4, 2097152, 2037035976334486086268445688409378161051468393665936250636140449354381299763336706183397375, [⟨2, 100433627766186892221372630771322662657637687111424552206336, 8148143905337944345073782753637512644205873574663745002544561797417525199053346824733589503⟩]⟩,
    ⟨5, 8148143905337944345073782753637512644205873574663745002544561797417525199053346824733589503, 16, 33554432, 2037035976334486086268445688409378161051466932164298919733222245669548583480317050250854399, []⟩,
    ⟨21, 8148143905337944345073782753637512644205873574663745002544561797417525199053346824733589503, 2658455991569831745807614120560689152, 8148143905337944345073782753637512644205873574663745002544561797417525199053346824733589503, 2037035976334486086268445688409378161051468393665936250636140449354381299763336706183397375, []⟩,
    ⟨40, 8148143905337944345073782753637512644205873574663745002544561797417525199053346824733589503, 2361183241434822606848, 590295810358705651712, 2037035976334486086268445688409378161051468393665936250636140449354381299763336706183397375, [⟨71, 41538374868278621028243970633760768, 590295810358705651712⟩]⟩,
    ⟨49, 8148143905337944345073782753637512644205873574663745002544561797417525199053346824733589503, 256, 37778931862957161709568, 2037035976334486086268445688409378161051468393665936250636140449354381299763336706183397375, []⟩,
    ⟨84, 8148143905337944345073782753637512644205873574663745002544561797417525199053346824733589503, 39614383488587213191554007040, 8148143905337944345073782753637512644205873574663745002544561797417525199053346824733589503, 2037035976334486086268445688409378161051468393665936229036185517849498365076471976493579759, []⟩,
    ⟨86, 8148143905337944345073782753637512644205873574663745002544561797417525199053346824733589503, 1180591620717411303424, 8148143905337944345073782753637512644205873574663745002544561797417525199053346824733589503, 2037035976334486086268445688409378161051468393665936250636140449354381299763336706183397375, []⟩,
    ⟨103, 8148143905337944345073782753637512644205873574663745002544561797417525199053346824733589503, 302231454903657293676544, 8148143905337944345073782753637512644205873574663745002544561797417525199053346824733589503, 2037035976334486086268445688409378161051468393665936229036185517849498365076471976493579759, []⟩,
    ⟨122, 8148143905337944345073782753637512644205873574663745002544561797417525199053346824733589503, 37778931862957161709568, 356811923176489970264571492362373784095686656, 2037035976334486086268445688409378161051468393665936250636140449354381299763336706183397375, [⟨75, 0, 356811923176489970264571492362373784095686656⟩]⟩,
    ⟨148, 8148143905337944345073782753637512644205873574663745002544561797417525199053346824733589503, 1180591620717411303424, 23945242826029513411849172299223580994042798784118784, 2037035976334486086268445688409378161051468393665936250636140449354381299763336706183397375, [⟨70, 0, 23945242826029513411849172299223580994042798784118784⟩]⟩,
    ⟨149, 8148143905337944345073782753637512644205873574663745002544561797417525199053346824733589503, 2596148429267413814265248164610048, 23945242826029513411849172299223580994042798784118784, 2037035976334486086268445688409378161051468393665936250636140449354381299763336706183397375, []⟩,
    ⟨160, 8148143905337944345073782753637512644205873574663745002544561797417525199053346824733589503, 2658455991569831745807614120560689152, 1024, 2037035976334486086268445688409378161051468393665936250636140449354381299763336706183397375, [⟨121, 0, 1024⟩]⟩,
    ⟨161, 8148143905337944345073782753637512644205873574663745002544561797417525199053346824733589503, 1180591620717411303424, 12554203470773361527671578846415332832204710888928069025792, 2037035976334486086268445688409378161051468393665936250636140449354381299763336706183397375, [⟨70, 0, 12554203470773361527671578846415332832204710888928069025792⟩]⟩,
    ⟨181, 8148143905337944345073782753637512644205873574663745002544561797417525199053346824733589503, 4722366482869645213696, 8148143905337944345073782753637512644205873574663745002544561797417525199053346824733589503, 2037035976334486086268445688409378161051468393665936250636140449354381299763336706183397375, []⟩,
    ⟨185, 8148143905337944345073782753637512644205873574663745002544561797417525199053346824733589503, 302231454903657293676544, 8148143905337944345073782753637512644205873574663745002544561797417525199053346824733589503, 2037035976334486086268445688409378161051468393665936229036185517849498365076471976493579759, []⟩,
    ⟨196, 8148143905337944345073782753637512644205873574663745002544561797417525199053346824733589503, 1180591620717411303424, 8148143905337944345073782753637512644205873574663745002544561797417525199053346824733589503, 2037035976334486086268445688409378161051468393665936250636140449354381299763336706183397375, []⟩]
  | .AlterVectorIndexStatement => [
    ⟨21, 8148143905337944345073782753637512644205873574663745002544561797417525199053346824733589503, 2658455991569831745807614120560689152, 8148143905337944345073782753637512644205873574663745002544561797417525199053346824733589503, 2037035976334486086268445688409378161051468393665936250636140449354381299763336706183397375, []⟩,
    ⟨84, 8148143905337944345073782753637512644205873574663745002544561797417525199053346824733589503, 39614383488587213191554007040, 8148143905337944345073782753637512644205873574663745002544561797417525199053346824733589503, 2037035976334486086268445688409378161051468393665936229036185517849498365076471976493579759, []⟩,
    ⟨86, 8148143905337944345073782753637512644205873574663745002544561797417525199053346824733589503, 1180591620717411303424, 8148143905337944345073782753637512644205873574663745002544561797417525199053346824733589503, 2037035976334486086268445688409378161051468393665936250636140449354381299763336706183397375, []⟩,
    ⟨103, 8148143905337944345073782753637512644205873574663745002544561797417525199053346824733589503, 302231454903657293676544, 8148143905337944345073782753637512644205873574663745002544561797417525199053346824733589503, 2037035976334486086268445688409378161051468393665936229036185517849498365076471976493579759, []⟩,
    ⟨120, 8148143905337944345073782753637512644205873574663745002544561797417525199053346824733589503, 4722366482869645213696, 8148143905337944345073782753637512644205873574663745002544561797417525199053346824733589503, 2037035976334486086268445688409378161051468393665936250636140449354381299763336706183397375, []⟩,
    ⟨121, 8148143905337944345073782753637512644205873574663745002544561797417525199053346824733589503, 1180591620717411303424, 8148143905337944345073782753637512644205873574663745002544561797417525199053346824733589503, 2037035976334486086268445688409378161051468393665936250636140449354381299763336706183397375, []⟩,
    ⟨160, 8148143905337944345073782753637512644205873574663745002544561797417525199053346824733589503, 2658455991569831745807614120560689152, 1024, 2037035976334486086268445688409378161051468393665936250636140449354381299763336706183397375, [⟨121, 0, 1024⟩]⟩,
    ⟨185, 8148143905337944345073782753637512644205873574663745002544561797417525199053346824733589503, 302231454903657293676544, 8148143905337944345073782753637512644205873574663745002544561797417525199053346824733589503, 2037035976334486086268445688409378161051468393665936229036185517849498365076471976493579759, []⟩,
    ⟨196, 8148143905337944345073782753637512644205873574663745002544561797417525199053346824733589503, 2361183241434822606848, 8148143905337944345073782753637512644205873574663745002544561797417525199053346824733589503, 2037035976334486086268445688409378161051468393665936250636140449354381299763336706183397375, [⟨71, 41538374868278621028243970633760768, 8148143905337944345073782753637512644205873574663745002544561797417525199053346824733589503⟩]⟩]
  | .AlterViewStatement => [
    ⟨5, 8148143905337944345073782753637512644205873574663745002544561797417525199053346824733589503, 16, 33554432, 2037035976334486086268445688409378161051466932164298919733222245669548583480317050250854399, []⟩,
    ⟨21, 8148143905337944345073782753637512644205873574663745002544561797417525199053346824733589503, 2658455991569831745807614120560689152, 8148143905337944345073782753637512644205873574663745002544561797417525199053346824733589503, 2037035976334486086268445688409378161051468393665936250636140449354381299763336706183397375, []⟩,
    ⟨84, 8148143905337944345073782753637512644205873574663745002544561797417525199053346824733589503, 39614383488587213191554007040, 8148143905337944345073782753637512644205873574663745002544561797417525199053346824733589503, 2037035976334486086268445688409378161051468393665936229036185517849498365076471976493579759, []⟩,
    ⟨86, 8148143905337944345073782753637512644205873574663745002544561797417525199053346824733589503, 1180591620717411303424, 8148143905337944345073782753637512644205873574663745002544561797417525199053346824733589503, 2037035976334486086268445688409378161051468393665936250636140449354381299763336706183397375, []⟩,
    ⟨103, 8148143905337944345073782753637512644205873574663745002544561797417525199053346824733589503, 302231454903657293676544, 8148143905337944345073782753637512644205873574663745002544561797417525199053346824733589503, 2037035976334486086268445688409378161051468393665936229036185517849498365076471976493579759, []⟩,
    ⟨109, 8148143905337944345073782753637512644205873574663745002544561797417525199053346824733589503, 1180591620717411303424, 21778071482940061661655974875633165533184, 2037035976334486086268445688409378161051468393665936250636140449354381299763336706183397375, [⟨70, 0, 21778071482940061661655974875633165533184⟩]⟩,
    ⟨122, 8148143905337944345073782753637512644205873574663745002544561797417525199053346824733589503, 37778931862957161709568, 8148143905337944345073782753637512644205873574663745002544561797417525199053346824733589503, 2037035976334486086268445688409378161051468393665936250636140449354381299763336706183397375, []⟩,
    ⟨160, 8148143905337944345073782753637512644205873574663745002544561797417525199053346824733589503, 2658455991569831745807614120560689152, 1024, 2037035976334486086268445688409378161051468393665936250636140449354381299763336706183397375, [⟨121, 0, 1024⟩]⟩,
    ⟨161, 8148143905337944345073782753637512644205873574663745002544561797417525199053346824733589503, 1180591620717411303424, 8148143905337944345073782753637512644205873574663745002544561797417525199053346824733589503, 2037035976334486086268445688409378161051468393665936250636140449354381299763336706183397375, []⟩,
    ⟨185, 8148143905337944345073782753637512644205873574663745002544561797417525199053346824733589503, 302231454903657293676544, 8148143905337944345073782753637512644205873574663745002544561797417525199053346824733589503, 2037035976334486086268445688409378161051468393665936229036185517849498365076471976493579759, []⟩,
    ⟨196, 8148143905337944345073782753637512644205873574663745002544561797417525199053346824733589503, 1180591620717411303424, 8148143905337944345073782753637512644205873574663745002544561797417525199053346824733589503, 2037035976334486086268445688409378161051468393665936250636140449354381299763336706183397375, []⟩]
  | .ArrayLiteral => [
    ⟨4, 8148143905337944345073782753637512644205873574663745002544561797417525199053346824733589503, 1606938044258990275541962092341162602522202993782792835301375, 8148143905337944345073782753637512644205873574663745002544561797417525199053346824733589503, 2037035976334486086268445688409378161051468393665936229036185517849498365076471976493579759, []⟩,
    ⟨9, 8148143905337944345073782753637512644205873574663745002544561797417525199053346824733589503, 1180591620717411303424, 536870912, 2037035976334486086268445688409378161051468393665936250636140449354381299763336706183397375, [⟨70, 0, 536870912⟩]⟩,
    ⟨27, 8148143905337944345073782753637512644205873574663745002544561797417525199053346824733589503, 2658455991569831745807614120560689152, 64, 2037035976334486086268445688409378161051468393665936250636140449354381299763336706183397375, [⟨121, 0, 64⟩]⟩,
    ⟨118, 8148143905337944345073782753637512644205873574663745002544561797417525199053346824733589503, 1180591620717411303424, 8148143905337944345073782753637512644205873574663745002544561797417525199053346824733589503, 2037035976334486086268445688409378161051468393665936250636140449354381299763336706183397375, []⟩,
    ⟨124, 8148143905337944345073782753637512644205873574663745002544561797417525199053346824733589503, 1180591620717411303424, 4722366482870718955520, 2037035976334486086268445688409378161051468393665936250636140449354381299763336706183397375, [⟨70, 0, 4722366482870718955520⟩]⟩,
    ⟨158, 8148143905337944345073782753637512644199887263957237624191599504342719303804836125037559807, 1606938044258990275541962092341162602522202993782792835301375, 8148143905337944345073782753637512644205873574663745002544561797417525199053346824733589503, 2037035976334486086268445688409378161051468393665936250636140449354381299763336706049179119, []⟩,
    ⟨158, 5986310706507378352962293074805895248510699696029696, 1606938044258990275541962092341162602522202993782792835301375, 8148143905337944345073782753637512644205873574663745002544561797417525199053346824733589503, 2037035976334486086268445688409378161051468393665936250636140449354381299763336706049179119, [⟨59, 3213876088517980551083924184682325205044405987565585670602752, 8148143905337944345073782753637512644205873574663745002544561797417525199053346824733589503⟩]⟩,
    ⟨159, 8148143905337944345073782753637512644205873574663745002544561797417525199053346824733589503, 2658455991569831745807614120560689152, 8148143905337944345073782753637512644205873574663745002544561797417525199053346824733589503, 2037035976334486086268445688409378161051468393665936250636140449354381299763336706183397375, []⟩,
    ⟨190, 8148143905337944345073782753637512644205873574663745002544561797417525199053346824733589503, 680564733841876926926749214863536422912, 8148143905337944345073782753637512644205873574663745002544561797417525199053346824733589503, 2037035976334486086268445688409378161051468393665936250636140449354381299763336706183397375, []⟩]
  | .AssertStatement => [
    ⟨9, 8148143905337944345073782753637512644205873574663745002544561797417525199053346824733589503, 1180591620717411303424, 536870912, 2037035976334486086268445688409378161051468393665936250636140449354381299763336706183397375, [⟨70, 0, 536870912⟩]⟩,
    ⟨21, 8148143905337944345073782753637512644205873574663745002544561797417525199053346824733589503, 2658455991569831745807614120560689152, 8148143905337944345073782753637512644205873574663745002544561797417525199053346824733589503, 2037035976334486086268445688409378161051468393665936250636140449354381299763336706183397375, []⟩,
    ⟨42, 8148143905337944345073782753637512644205873574663745002544561797417525199053346824733589503, 1606938044258990275541962092341162602522202993782792835301375, 8148143905337944345073782753637512644205873574663745002544561797417525199053346824733589503, 2037035976334486086268445688409378161051468393665936250636140449354381299763336706049179119, []⟩,
    ⟨64, 8148143905337944345073782753637512644205873574663745002544561797417525199053346824733589503, 1606938044258990275541962092341162602522202993782792835301375, 8148143905337944345073782753637512644205873574663745002544561797417525199053346824733589503, 2037035976334486086268445688409378161051468393665936250636140449354381299763336706049179119, []⟩,
    ⟨103, 8148143905337944345073782753637512644205873574663745002544561797417525199053346824733589503, 302231454903657293676544, 8148143905337944345073782753637512644205873574663745002544561797417525199053346824733589503, 2037035976334486086268445688409378161051468393665936229036185517849498365076471976493579759, []⟩,
    ⟨160, 8148143905337944345073782753637512644205873574663745002544561797417525199053346824733589503, 2658455991569831745807614120560689152, 1024, 2037035976334486086268445688409378161051468393665936250636140449354381299763336706183397375, [⟨121, 0, 1024⟩]⟩,
    ⟨185, 8148143905337944345073782753637512644205873574663745002544561797417525199053346824733589503, 302231454903657293676544, 8148143905337944345073782753637512644205873574663745002544561797417525199053346824733589503, 2037035976334486086268445688409378161051468393665936229036185517849498365076471976493579759, []⟩]
  | .Asterisk => [
    ⟨4, 8148143905337944345073782753637512644205873574663745002544561797417525199053346824733589503, 1606938044258990275541962092341162602522202993782792835301375, 8148143905337944345073782753637512644205873574663745002544561797417525199053346824733589503, 2037035976334486086268445688409378161051468393665936229036185517849498365076471976493579759, []⟩,
    ⟨9, 8148143905337944345073782753637512644205873574663745002544561797417525199053346824733589503, 1180591620717411303424, 536870912, 2037035976334486086268445688409378161051468393665936250636140449354381299763336706183397375, [⟨70, 0, 536870912⟩]⟩,
    ⟨27, 8148143905337944345073782753637512644205873574663745002544561797417525199053346824733589503, 2658455991569831745807614120560689152, 64, 2037035976334486086268445688409378161051468393665936250636140449354381299763336706183397375, [⟨121, 0, 64⟩]⟩,
    ⟨62, 8148143905337944345073782753637512644205873574663745002544561797417525199053346824733589503, 37778931862957161709568, 4835703278458516698824704, 2037035976334486086268445688409378161051468393665936250636140449354381299763336706183397375, [⟨75, 0, 4835703278458516698824704⟩]⟩,
    ⟨118, 8148143905337944345073782753637512644205873574663745002544561797417525199053346824733589503, 1180591620717411303424, 8148143905337944345073782753637512644205873574663745002544561797417525199053346824733589503, 2037035976334486086268445688409378161051468393665936250636140449354381299763336706183397375, []⟩,
    ⟨124, 8148143905337944345073782753637512644205873574663745002544561797417525199053346824733589503, 1180591620717411303424, 4722366482870718955520, 2037035976334486086268445688409378161051468393665936250636140449354381299763336706183397375, [⟨70, 0, 4722366482870718955520⟩]⟩,
    ⟨150, 8148143905337944345073782753637512644205873574663745002544561797417525199053346824733589503, 37778931862957161709568, 95780971304118053647396689196894323976171195136475136, 2037035976334486086268445688409378161051468393665936250636140449354381299763336706183397375, [⟨75, 0, 95780971304118053647396689196894323976171195136475136⟩]⟩,
    ⟨158, 8148143905337944345073782753637512644205873574663745002544561797417525199053346824733589503, 1606938044258990275541962092341162602522202993782792835301375, 8148143905337944345073782753637512644205873574663745002544561797417525199053346824733589503, 2037035976334486086268445688409378161051468393665936250636140449354381299763336706049179119, []⟩]
  | .BasePipeOperator => [
    ⟨99, 8148143905337944345073782753637512644205873574663745002544561797417525199053346824733589503, 1180591620717411303424, 8148143905337944345073782753637512644205873574663745002544561797417525199053346824733589503, 2037035976334486086268445688409378161051468393665936250636140449354381299763336706183397375, []⟩]
  | .BinaryOperator => [
    ⟨4, 8148143905337944345073782753637512644205873574663745002544561797417525199053346824733589503, 1606938044258990275541962092341162602522202993782792835301375, 8148143905337944345073782753637512644205873574663745002544561797417525199053346824733589503, 2037035976334486086268445688409378161051468393665936229036185517849498365076471976493579759, []⟩,
    ⟨9, 8148143905337944345073782753637512644205873574663745002544561797417525199053346824733589503, 1180591620717411303424, 536870912, 2037035976334486086268445688409378161051468393665936250636140449354381299763336706183397375, [⟨70, 0, 536870912⟩]⟩,
    ⟨27, 8148143905337944345073782753637512644205873574663745002544561797417525199053346824733589503, 2658455991569831745807614120560689152, 64, 2037035976334486086268445688409378161051468393665936250636140449354381299763336706183397375, [⟨121, 0, 64⟩]⟩,
    ⟨72, 8148143905337944345073782753637512644205873574663745002544561797417525199053346824733589503, 144115188075855872, 39614081257132168796771975168, 2037035976334486086268445688409378161051468393665936250636140449354381299763336706183397375, []⟩,
    ⟨107, 8148143905337944345073782753637512644205873574663745002544561797417525199053346824733589503, 2475880078570760549798248448, 10889035741470030830827987437816582766592, 2037035976334486086268445688409378161051468393665936250636140449354381299763336706183397375, []⟩,
    ⟨116, 8148143905337944345073782753637512644205873574663745002544561797417525199053346824733589503, 1180591620717411303424, 2787593149816327892691964784081045188247552, 2037035976334486086268445688409378161051468393665936250636140449354381299763336706183397375, [⟨70, 0, 2787593149816327892691964784081045188247552⟩]⟩,
    ⟨118, 8148143905337944345073782753637512644205873574663745002544561797417525199053346824733589503, 1180591620717411303424, 8148143905337944345073782753637512644205873574663745002544561797417525199053346824733589503, 2037035976334486086268445688409378161051468393665936250636140449354381299763336706183397375, []⟩,
    ⟨124, 8148143905337944345073782753637512644205873574663745002544561797417525199053346824733589503, 1180591620717411303424, 4722366482870718955520, 2037035976334486086268445688409378161051468393665936250636140449354381299763336706183397375, [⟨70, 0, 4722366482870718955520⟩]⟩,
    ⟨137, 8148143905337944345073782753637512644205873574663745002544561797417525199053346824733589503, 162259276829213363391578010288128, 1461501637330902918203684832716283019655932542976, 2037035976334486086268445688409378161051468393665936250636140449354381299763336706183397375, []⟩,
    ⟨141, 8148143905337944345073782753637512644205873574663745002544561797417525199053346824733589503, 1180591620717411303424, 50216813883093446110686315385661331328818843555712427098112, 2037035976334486086268445688409378161051468393665936250636140449354381299763336706183397375, [⟨70, 0, 50216813883093446110686315385661331328818843555712427098112⟩]⟩,
    ⟨154, 8148143905337944345073782753637512644205873574663745002544561797417525199053346824733589503, 1606938044258990275541962092341162602522202993782792835301375, 8148143905337944345073782753637512644205873574663745002544561797417525199053346824733589503, 2037035976334486086268445688409378161051468393665936250636140449354381299763336706049179119, []⟩,
    ⟨158, 8148143905337944345073782753637512644205873574663745002544561797417525199053346824733589503, 1606938044258990275541962092341162602522202993782792835301375, 8148143905337944345073782753637512644205873574663745002544561797417525199053346824733589503, 2037035976334486086268445688409378161051468393665936250636140449354381299763336706049179119, []⟩,
    ⟨176, 8148143905337944345073782753637512644205873574663745002544561797417525199053346824733589503, 5316911983139663491615228241121378304, 1606938044258990275541962092341162602522202993782792835301376, 2037035976334486086268445688409378161051468393665936250636140449354381299763336706183397375, []⟩,
    ⟨192, 8148143905337944345073782753637512644205873574663745002544561797417525199053346824733589503, 43556142965880123323311949751266331066368, 421249166674228746791672110734681729275580381602196445017243910144, 2037035976334486086268445688409378161051468393665936250636140449354381299763336706183397375, []⟩,
    ⟨203, 8148143905337944345073782753637512644205873574663745002544561797417525199053346824733589503, 89202980794122492566142873090593446023921664, 862718293348820473429344482784628181556388621521298319395315527974912, 2037035976334486086268445688409378161051468393665936250636140449354381299763336706183397375, []⟩]
  | .BeginStatement => [
    ⟨21, 8148143905337944345073782753637512644205873574663745002544561797417525199053346824733589503, 2658455991569831745807614120560689152, 8148143905337944345073782753637512644205873574663745002544561797417525199053346824733589503, 2037035976334486086268445688409378161051468393665936250636140449354381299763336706183397375, []⟩,
    ⟨54, 8148143905337944345073782753637512644205873574663745002544561797417525199053346824733589503, 1180591620717411303424, 8148143905337944345073782753637512644205873574663745002544561797417525199053346824733589503, 2037035976334486086268445688409378161051468393665936250636140449354381299763336706183397375, []⟩,
    ⟨63, 8148143905337944345073782753637512644205873574663745002544561797417525199053346824733589503, 1180591620717411303424, 8148143905337944345073782753637512644205873574663745002544561797417525199053346824733589503, 2037035976334486086268445688409378161051468393665936250636140449354381299763336706183397375, []⟩,
    ⟨103, 8148143905337944345073782753637512644205873574663745002544561797417525199053346824733589503, 302231454903657293676544, 8148143905337944345073782753637512644205873574663745002544561797417525199053346824733589503, 2037035976334486086268445688409378161051468393665936229036185517849498365076471976493579759, []⟩,
    ⟨160, 8148143905337944345073782753637512644205873574663745002544561797417525199053346824733589503, 2658455991569831745807614120560689152, 1024, 2037035976334486086268445688409378161051468393665936250636140449354381299763336706183397375, [⟨121, 0, 1024⟩]⟩,
    ⟨168, 8148143905337944345073782753637512644205873574663745002544561797417525199053346824733589503, 1606938044258990275541962092341162602522202993782792835301375, 8148143905337944345073782753637512644205873574663745002544561797417525199053346824733589503, 2037035976334486086268445688409378161051468393665935888753818596911034901701864544725368815, [⟨118, 0, 3064991081731777716716694054300618367237478244367204352⟩]⟩,
    ⟨179, 8148143905337944345073782753637512644205873574663745002544561797417525199053346824733589503, 151115727451828646838272, 8148143905337944345073782753637512644205873574663745002544561797417525199053346824733589503, 2037035976334486086268445688409378161051468393665936250636140449354381299763336706183397375, []⟩,
    ⟨185, 8148143905337944345073782753637512644205873574663745002544561797417525199053346824733589503, 302231454903657293676544, 8148143905337944345073782753637512644205873574663745002544561797417525199053346824733589503, 2037035976334486086268445688409378161051468393665936229036185517849498365076471976493579759, []⟩]
  | .BetweenOperator => [
    ⟨4, 8148143905337944345073782753637512644205873574663745002544561797417525199053346824733589503, 1606938044258990275541962092341162602522202993782792835301375, 8148143905337944345073782753637512644205873574663745002544561797417525199053346824733589503, 2037035976334486086268445688409378161051468393665936229036185517849498365076471976493579759, []⟩,
    ⟨6, 8148143905337944345073782753637512644205873574663745002544561797417525199053346824733589503, 1180591620717411303424, 8148143905337944345073782753637512644205873574663745002544561797417525199053346824733589503, 2037035976334486086268445688409378161051468393665936250636140449354381299763336706183397375, []⟩,
    ⟨9, 8148143905337944345073782753637512644205873574663745002544561797417525199053346824733589503, 1180591620717411303424, 536870912, 2037035976334486086268445688409378161051468393665936250636140449354381299763336706183397375, [⟨70, 0, 536870912⟩]⟩,
    ⟨27, 8148143905337944345073782753637512644205873574663745002544561797417525199053346824733589503, 2658455991569831745807614120560689152, 64, 2037035976334486086268445688409378161051468393665936250636140449354381299763336706183397375, [⟨121, 0, 64⟩]⟩,
    ⟨72, 8148143905337944345073782753637512644205873574663745002544561797417525199053346824733589503, 144115188075855872, 39614081257132168796771975168, 2037035976334486086268445688409378161051468393665936250636140449354381299763336706183397375, []⟩,
    ⟨107, 8148143905337944345073782753637512644205873574663745002544561797417525199053346824733589503, 2475880078570760549798248448, 10889035741470030830827987437816582766592, 2037035976334486086268445688409378161051468393665936250636140449354381299763336706183397375, []⟩,
    ⟨116, 8148143905337944345073782753637512644205873574663745002544561797417525199053346824733589503, 1180591620717411303424, 2787593149816327892691964784081045188247552, 2037035976334486086268445688409378161051468393665936250636140449354381299763336706183397375, [⟨70, 0, 2787593149816327892691964784081045188247552⟩]⟩,
    ⟨118, 8148143905337944345073782753637512644205873574663745002544561797417525199053346824733589503, 1180591620717411303424, 8148143905337944345073782753637512644205873574663745002544561797417525199053346824733589503, 2037035976334486086268445688409378161051468393665936250636140449354381299763336706183397375, []⟩,
    ⟨124, 8148143905337944345073782753637512644205873574663745002544561797417525199053346824733589503, 1180591620717411303424, 4722366482870718955520, 2037035976334486086268445688409378161051468393665936250636140449354381299763336706183397375, [⟨70, 0, 4722366482870718955520⟩]⟩,
    ⟨137, 8148143905337944345073782753637512644205873574663745002544561797417525199053346824733589503, 162259276829213363391578010288128, 1461501637330902918203684832716283019655932542976, 2037035976334486086268445688409378161051468393665936250636140449354381299763336706183397375, []⟩,
    ⟨155, 8148143905337944345073782753637512644205873574663745002544561797417525199053346824733589503, 1606938044258990275541962092341162602522202993782792835301375, 8148143905337944345073782753637512644205873574663745002544561797417525199053346824733589503, 2037035976334486086268445688409378161051468393665936250636140449354381299763336706049179119, []⟩,
    ⟨156, 8148143905337944345073782753637512644205873574663745002544561797417525199053346824733589503, 1606938044258990275541962092341162602522202993782792835301375, 8148143905337944345073782753637512644205873574663745002544561797417525199053346824733589503, 2037035976334486086268445688409378161051468393665936250636140449354381299763336706049179119, []⟩,
    ⟨158, 8148143905337944345073782753637512644205873574663745002544561797417525199053346824733589503, 1606938044258990275541962092341162602522202993782792835301375, 8148143905337944345073782753637512644205873574663745002544561797417525199053346824733589503, 2037035976334486086268445688409378161051468393665936250636140449354381299763336706049179119, []⟩,
    ⟨176, 8148143905337944345073782753637512644205873574663745002544561797417525199053346824733589503, 5316911983139663491615228241121378304, 1606938044258990275541962092341162602522202993782792835301376, 2037035976334486086268445688409378161051468393665936250636140449354381299763336706183397375, []⟩,
    ⟨192, 8148143905337944345073782753637512644205873574663745002544561797417525199053346824733589503, 43556142965880123323311949751266331066368, 421249166674228746791672110734681729275580381602196445017243910144, 2037035976334486086268445688409378161051468393665936250636140449354381299763336706183397375, []⟩,
    ⟨203, 8148143905337944345073782753637512644205873574663745002544561797417525199053346824733589503, 89202980794122492566142873090593446023921664, 862718293348820473429344482784628181556388621521298319395315527974912, 2037035976334486086268445688409378161051468393665936250636140449354381299763336706183397375, []⟩]
  | .BooleanLiteral => [
    ⟨4, 8148143905337944345073782753637512644205873574663745002544561797417525199053346824733589503, 1606938044258990275541962092341162602522202993782792835301375, 8148143905337944345073782753637512644205873574663745002544561797417525199053346824733589503, 2037035976334486086268445688409378161051468393665936229036185517849498365076471976493579759, []⟩,
    ⟨9, 8148143905337944345073782753637512644205873574663745002544561797417525199053346824733589503, 1180591620717411303424, 536870912, 2037035976334486086268445688409378161051468393665936250636140449354381299763336706183397375, [⟨70, 0, 536870912⟩]⟩,
    ⟨27, 8148143905337944345073782753637512644205873574663745002544561797417525199053346824733589503, 2658455991569831745807614120560689152, 64, 2037035976334486086268445688409378161051468393665936250636140449354381299763336706183397375, [⟨121, 0, 64⟩]⟩,
    ⟨118, 8148143905337944345073782753637512644205873574663745002544561797417525199053346824733589503, 1180591620717411303424, 8148143905337944345073782753637512644205873574663745002544561797417525199053346824733589503, 2037035976334486086268445688409378161051468393665936250636140449354381299763336706183397375, []⟩,
    ⟨124, 8148143905337944345073782753637512644205873574663745002544561797417525199053346824733589503, 1180591620717411303424, 4722366482870718955520, 2037035976334486086268445688409378161051468393665936250636140449354381299763336706183397375, [⟨70, 0, 4722366482870718955520⟩]⟩,
    ⟨154, 8148143905337944345073782753637512644205873574663745002544561797417525199053346824733589503, 1606938044258990275541962092341162602522202993782792835301375, 8148143905337944345073782753637512644205873574663745002544561797417525199053346824733589503, 2037035976334486086268445688409378161051468393665936250636140449354381299763336706049179119, []⟩,
    ⟨158, 8148143905337944345073782753637512644205873574663745002544561797417525199053346824733589503, 1606938044258990275541962092341162602522202993782792835301375, 8148143905337944345073782753637512644205873574663745002544561797417525199053346824733589503, 2037035976334486086268445688409378161051468393665936250636140449354381299763336706049179119, []⟩]
  | .BreakContinueStatement => [
    ⟨21, 8148143905337944345073782753637512644205873574663745002544561797417525199053346824733589503, 2658455991569831745807614120560689152, 8148143905337944345073782753637512644205873574663745002544561797417525199053346824733589503, 2037035976334486086268445688409378161051468393665936250636140449354381299763336706183397375, []⟩,
    ⟨100, 8148143905337944345073782753637512644205873574663745002544561797417525199053346824733589503, 302231454903657293676544, 8148143905337944345073782753637512644205873574663745002544561797417525199053346824733589503, 2037035976334486086268445688409378161051468393665936229036185517849498365076471976493579759, []⟩,
    ⟨103, 8148143905337944345073782753637512644205873574663745002544561797417525199053346824733589503, 302231454903657293676544, 8148143905337944345073782753637512644205873574663745002544561797417525199053346824733589503, 2037035976334486086268445688409378161051468393665936229036185517849498365076471976493579759, []⟩,
    ⟨160, 8148143905337944345073782753637512644205873574663745002544561797417525199053346824733589503, 2658455991569831745807614120560689152, 1024, 2037035976334486086268445688409378161051468393665936250636140449354381299763336706183397375, [⟨121, 0, 1024⟩]⟩,
    ⟨185, 8148143905337944345073782753637512644205873574663745002544561797417525199053346824733589503, 302231454903657293676544, 8148143905337944345073782753637512644205873574663745002544561797417525199053346824733589503, 2037035976334486086268445688409378161051468393665936229036185517849498365076471976493579759, []⟩]
  | .CallingFunction => [
    ⟨4, 8148143905337944345073782753637512644205873574663745002544561797417525199053346824733589503, 1606938044258990275541962092341162602522202993782792835301375, 8148143905337944345073782753637512644205873574663745002544561797417525199053346824733589503, 2037035976334486086268445688409378161051468393665936229036185517849498365076471976493579759, []⟩,
    ⟨9, 8148143905337944345073782753637512644205873574663745002544561797417525199053346824733589503, 1180591620717411303424, 536870912, 2037035976334486086268445688409378161051468393665936250636140449354381299763336706183397375, [⟨70, 0, 536870912⟩]⟩,
    ⟨27, 8148143905337944345073782753637512644205873574663745002544561797417525199053346824733589503, 2658455991569831745807614120560689152, 64, 2037035976334486086268445688409378161051468393665936250636140449354381299763336706183397375, [⟨121, 0, 64⟩]⟩,
    ⟨45, 8148143905337944345073782753637512644205873574663745002544561797417525199053346824733589503, 1180591620717411303424, 18889465931478580854784, 2037035976334486086268445688409378161051468393665936250636140449354381299763336706183397375, [⟨70, 0, 18889465931478580854784⟩]⟩,
    ⟨77, 8148143905337944345073782753637512644205873574663745002544561797417525199053346824733589503, 1606938044258990275541962092341162602522202993782792835301375, 8148143905337944345073782753637512644205873574663745002544561797417525199053346824733589503, 2037035976334486086268445688409378161051468393665936229036185517849498365076471976493579759, []⟩,
    ⟨82, 8148143905337944345073782753637512644205873574663745002544561797417525199053346824733589503, 2361183241434822606848, 81129638414606681695789005144064, 2037035976334486086268445688409378161051468393665936250636140449354381299763336706183397375, [⟨71, 41538374868278621028243970633760768, 81129638414606681695789005144064⟩]⟩,
    ⟨88, 8148143905337944345073782753637512644205873574663745002544561797417525199053346824733589503, 1180591620717411303424, 8148143905337944345073782753637512644205873574663745002544561797417525199053346824733589503, 2037035976334486086268445688409378161051468393665936250636140449354381299763336706183397375, []⟩,
    ⟨106, 8148143905337944345073782753637512644205873574663745002544561797417525199053346824733589503, 4722366482869645213696, 680564733841876926926749214863536422912, 2037035976334486086268445688409378161051468393665936250636140449354381299763336706183397375, [⟨72, 0, 680564733841876926926749214863536422912⟩]⟩,
    ⟨118, 8148143905337944345073782753637512644205873574663745002544561797417525199053346824733589503, 1180591620717411303424, 8148143905337944345073782753637512644205873574663745002544561797417525199053346824733589503, 2037035976334486086268445688409378161051468393665936250636140449354381299763336706183397375, []⟩,
    ⟨124, 8148143905337944345073782753637512644205873574663745002544561797417525199053346824733589503, 1180591620717411303424, 4722366482870718955520, 2037035976334486086268445688409378161051468393665936250636140449354381299763336706183397375, [⟨70, 0, 4722366482870718955520⟩]⟩,
    ⟨125, 8148143905337944345073782753637512644205873574663745002544561797417525199053346824733589503, 1427247692705959881058285969449495136382746624, 1427247692705959881058285969449495136382746624, 2037035976334486086268445688409378161051468393665936250636140449354381299763336706183397375, [⟨150, 0, 1427247692705959881058285969449495136382746624⟩]⟩,
    ⟨128, 8148143905337944345073782753637512644205873574663745002544561797417525199053346824733589503, 633825300114114700748351602688, 45671926166590716193865151022383844364247891968, 2037035976334486086268445688409378161051468393665936250636140449354381299763336706183397375, []⟩,
    ⟨158, 8148143905337944345073782753637512644205873574663745002544561797417525199053346824733589503, 1606938044258990275541962092341162602522202993782792835301375, 8148143905337944345073782753637512644205873574663745002544561797417525199053346824733589503, 2037035976334486086268445688409378161051468393665936250636140449354381299763336706049179119, []⟩,
    ⟨159, 8148143905337944345073782753637512644205873574663745002544561797417525199053346824733589503, 2658455991569831745807614120560689152, 8148143905337944345073782753637512644205873574663745002544561797417525199053346824733589503, 2037035976334486086268445688409378161051468393665936250636140449354381299763336706183397375, []⟩]
  | .CallingTableFunction => [
    ⟨4, 8148143905337944345073782753637512644205873574663745002544561797417525199053346824733589503, 302231454903657293676544, 8148143905337944345073782753637512644205873574663745002544561797417525199053346824733589503, 2037035976334486086268445688409378161051468393665936229036185517849498365076471976493579759, []⟩,
    ⟨9, 8148143905337944345073782753637512644205873574663745002544561797417525199053346824733589503, 1180591620717411303424, 536870912, 2037035976334486086268445688409378161051468393665936250636140449354381299763336706183397375, [⟨70, 0, 536870912⟩]⟩,
    ⟨45, 8148143905337944345073782753637512644205873574663745002544561797417525199053346824733589503, 1180591620717411303424, 18889465931478580854784, 2037035976334486086268445688409378161051468393665936250636140449354381299763336706183397375, [⟨70, 0, 18889465931478580854784⟩]⟩,
    ⟨72, 8148143905337944345073782753637512644205873574663745002544561797417525199053346824733589503, 144115188075855872, 39614081257132168796771975168, 2037035976334486086268445688409378161051468393665936250636140449354381299763336706183397375, []⟩,
    ⟨77, 8148143905337944345073782753637512644205873574663745002544561797417525199053346824733589503, 1606938044258990275541962092341162602522202993782792835301375, 8148143905337944345073782753637512644205873574663745002544561797417525199053346824733589503, 2037035976334486086268445688409378161051468393665936229036185517849498365076471976493579759, []⟩,
    ⟨82, 8148143905337944345073782753637512644205873574663745002544561797417525199053346824733589503, 2361183241434822606848, 81129638414606681695789005144064, 2037035976334486086268445688409378161051468393665936250636140449354381299763336706183397375, [⟨71, 41538374868278621028243970633760768, 81129638414606681695789005144064⟩]⟩,
    ⟨88, 8148143905337944345073782753637512644205873574663745002544561797417525199053346824733589503, 1180591620717411303424, 8148143905337944345073782753637512644205873574663745002544561797417525199053346824733589503, 2037035976334486086268445688409378161051468393665936250636140449354381299763336706183397375, []⟩,
    ⟨106, 8148143905337944345073782753637512644205873574663745002544561797417525199053346824733589503, 4722366482869645213696, 680564733841876926926749214863536422912, 2037035976334486086268445688409378161051468393665936250636140449354381299763336706183397375, [⟨72, 0, 680564733841876926926749214863536422912⟩]⟩,
    ⟨107, 8148143905337944345073782753637512644205873574663745002544561797417525199053346824733589503, 2475880078570760549798248448, 10889035741470030830827987437816582766592, 2037035976334486086268445688409378161051468393665936250636140449354381299763336706183397375, []⟩,
    ⟨118, 8148143905337944345073782753637512644205873574663745002544561797417525199053346824733589503, 1180591620717411303424, 8148143905337944345073782753637512644205873574663745002544561797417525199053346824733589503, 2037035976334486086268445688409378161051468393665936250636140449354381299763336706183397375, []⟩,
    ⟨124, 8148143905337944345073782753637512644205873574663745002544561797417525199053346824733589503, 1180591620717411303424, 4722366482870718955520, 2037035976334486086268445688409378161051468393665936250636140449354381299763336706183397375, [⟨70, 0, 4722366482870718955520⟩]⟩,
    ⟨125, 8148143905337944345073782753637512644205873574663745002544561797417525199053346824733589503, 1427247692705959881058285969449495136382746624, 1427247692705959881058285969449495136382746624, 2037035976334486086268445688409378161051468393665936250636140449354381299763336706183397375, [⟨150, 0, 1427247692705959881058285969449495136382746624⟩]⟩,
    ⟨128, 8148143905337944345073782753637512644205873574663745002544561797417525199053346824733589503, 633825300114114700748351602688, 45671926166590716193865151022383844364247891968, 2037035976334486086268445688409378161051468393665936250636140449354381299763336706183397375, []⟩,
    ⟨137, 8148143905337944345073782753637512644205873574663745002544561797417525199053346824733589503, 162259276829213363391578010288128, 1461501637330902918203684832716283019655932542976, 2037035976334486086268445688409378161051468393665936250636140449354381299763336706183397375, []⟩,
    ⟨159, 8148143905337944345073782753637512644205873574663745002544561797417525199053346824733589503, 2658455991569831745807614120560689152, 8148143905337944345073782753637512644205873574663745002544561797417525199053346824733589503, 2037035976334486086268445688409378161051468393665936250636140449354381299763336706183397375, []⟩,
    ⟨176, 8148143905337944345073782753637512644205873574663745002544561797417525199053346824733589503, 5316911983139663491615228241121378304, 1606938044258990275541962092341162602522202993782792835301376, 2037035976334486086268445688409378161051468393665936250636140449354381299763336706183397375, []⟩,
    ⟨192, 8148143905337944345073782753637512644205873574663745002544561797417525199053346824733589503, 43556142965880123323311949751266331066368, 421249166674228746791672110734681729275580381602196445017243910144, 2037035976334486086268445688409378161051468393665936250636140449354381299763336706183397375, []⟩,
    ⟨203, 8148143905337944345073782753637512644205873574663745002544561797417525199053346824733589503, 89202980794122492566142873090593446023921664, 862718293348820473429344482784628181556388621521298319395315527974912, 2037035976334486086268445688409378161051468393665936250636140449354381299763336706183397375, []⟩]
  | .CallingUnnest => [
    ⟨4, 8148143905337944345073782753637512644205873574663745002544561797417525199053346824733589503, 302231454903657293676544, 8148143905337944345073782753637512644205873574663745002544561797417525199053346824733589503, 2037035976334486086268445688409378161051468393665936229036185517849498365076471976493579759, []⟩,
    ⟨6, 8148143905337944345073782753637512644205873574663745002544561797417525199053346824733589503, 1180591620717411303424, 8148143905337944345073782753637512644205873574663745002544561797417525199053346824733589503, 2037035976334486086268445688409378161051468393665936250636140449354381299763336706183397375, []⟩,
    ⟨9, 8148143905337944345073782753637512644205873574663745002544561797417525199053346824733589503, 1180591620717411303424, 536870912, 2037035976334486086268445688409378161051468393665936250636140449354381299763336706183397375, [⟨70, 0, 536870912⟩]⟩,
    ⟨45, 4, 1180591620717411303424, 18889465931478580854784, 2037035976334486086268445688409378161051468393665936250636140449354381299763336706183397375, [⟨70, 0, 18889465931478580854784⟩]⟩,
    ⟨45, 332306998946228968225951765070086144, 1180591620717411303424, 8148143905337944345073782753637512644205873574663745002544561797417525199053346824733589503, 2037035976334486086268445688409378161051468393665936250636140449354381299763336706183397375, []⟩,
    ⟨72, 8148143905337944345073782753637512644205873574663745002544561797417525199053346824733589503, 144115188075855872, 39614081257132168796771975168, 2037035976334486086268445688409378161051468393665936250636140449354381299763336706183397375, []⟩,
    ⟨75, 8148143905337944345073782753637512644205873574663745002544561797417525199053346824733589503, 1180591620717411303424, 8148143905337944345073782753637512644205873574663745002544561797417525199053346824733589503, 2037035976334486086268445688409378161051468393665936250636140449354381299763336706183397375, []⟩,
    ⟨77, 8148143905337944345073782753637512644205873574663745002544561797417525199053346824733589503, 1606938044258990275541962092341162602522202993782792835301375, 8148143905337944345073782753637512644205873574663745002544561797417525199053346824733589503, 2037035976334486086268445688409378161051468393665936229036185517849498365076471976493579759, []⟩,
    ⟨82, 8148143905337944345073782753637512644205873574663745002544561797417525199053346824733589503, 2361183241434822606848, 81129638414606681695789005144064, 2037035976334486086268445688409378161051468393665936250636140449354381299763336706183397375, [⟨71, 41538374868278621028243970633760768, 81129638414606681695789005144064⟩]⟩,
    ⟨88, 8148143905337944345073782753637512644205873574663745002544561797417525199053346824733589503, 1180591620717411303424, 8148143905337944345073782753637512644205873574663745002544561797417525199053346824733589503, 2037035976334486086268445688409378161051468393665936250636140449354381299763336706183397375, []⟩,
    ⟨104, 3450873173395281893717377931138512726225554486085193277581262111899904, 1606938044258990275541962092341162602522202993782792835301375, 8148143905337944345073782753637512644205873574663745002544561797417525199053346824733589503, 2037035976334486086268445688409378161051468393665936229036185517849498365076471976493579759, []⟩,
    ⟨106, 8148143905337944345073782753637512644205873574663745002544561797417525199053346824733589503, 4722366482869645213696, 680564733841876926926749214863536422912, 2037035976334486086268445688409378161051468393665936250636140449354381299763336706183397375, [⟨72, 0, 680564733841876926926749214863536422912⟩]⟩,
    ⟨107, 8148143905337944345073782753637512644205873574663745002544561797417525199053346824733589503, 2475880078570760549798248448, 10889035741470030830827987437816582766592, 2037035976334486086268445688409378161051468393665936250636140449354381299763336706183397375, []⟩,
    ⟨116, 8148143905337944345073782753637512644205873574663745002544561797417525199053346824733589503, 1180591620717411303424, 2787593149816327892691964784081045188247552, 2037035976334486086268445688409378161051468393665936250636140449354381299763336706183397375, [⟨70, 0, 2787593149816327892691964784081045188247552⟩]⟩,
    ⟨118, 8148143905337944345073782753637512644205873574663745002544561797417525199053346824733589503, 1180591620717411303424, 8148143905337944345073782753637512644205873574663745002544561797417525199053346824733589503, 2037035976334486086268445688409378161051468393665936250636140449354381299763336706183397375, []⟩,
    ⟨124, 8148143905337944345073782753637512644205873574663745002544561797417525199053346824733589503, 1180591620717411303424, 4722366482870718955520, 2037035976334486086268445688409378161051468393665936250636140449354381299763336706183397375, [⟨70, 0, 4722366482870718955520⟩]⟩,
    ⟨125, 8148143905337944345073782753637512644205873574663745002544561797417525199053346824733589503, 1427247692705959881058285969449495136382746624, 1427247692705959881058285969449495136382746624, 2037035976334486086268445688409378161051468393665936250636140449354381299763336706183397375, [⟨150, 0, 1427247692705959881058285969449495136382746624⟩]⟩,
    ⟨128, 8148143905337944345073782753637512644205873574663745002544561797417525199053346824733589503, 633825300114114700748351602688, 45671926166590716193865151022383844364247891968, 2037035976334486086268445688409378161051468393665936250636140449354381299763336706183397375, []⟩,
    ⟨137, 8148143905337944345073782753637512644205873574663745002544561797417525199053346824733589503, 162259276829213363391578010288128, 1461501637330902918203684832716283019655932542976, 2037035976334486086268445688409378161051468393665936250636140449354381299763336706183397375, []⟩,
    ⟨141, 8148143905337944345073782753637512644205873574663745002544561797417525199053346824733589503, 1180591620717411303424, 50216813883093446110686315385661331328818843555712427098112, 2037035976334486086268445688409378161051468393665936250636140449354381299763336706183397375, [⟨70, 0, 50216813883093446110686315385661331328818843555712427098112⟩]⟩,
    ⟨154, 293324219738598960965977124860397768696825991731076844919714044609297331, 1606938044258990275541962092341162602522202993782792835301375, 8148143905337944345073782753637512644205873574663745002544561797417525199053346824733589503, 2037035976334486086268445688409378161051468393665936250636140449354381299763336706049179119, []⟩,
    ⟨154, 649037107316853453566312041152512, 184467440737162625024, 8148143905337944345073782753637512644205873574663745002544561797417525199053346824733589503, 2037035976334486086268445688409378161051466932164298919733222245669548583480317050116636143, []⟩,
    ⟨155, 8148143905337944345073782753637512644205873574663745002544561797417525199053346824733589503, 1606938044258990275541962092341162602522202993782792835301375, 8148143905337944345073782753637512644205873574663745002544561797417525199053346824733589503, 2037035976334486086268445688409378161051468393665936250636140449354381299763336706049179119, []⟩,
    ⟨156, 8148143905337944345073782753637512644205873574663745002544561797417525199053346824733589503, 1606938044258990275541962092341162602522202993782792835301375, 8148143905337944345073782753637512644205873574663745002544561797417525199053346824733589503, 2037035976334486086268445688409378161051468393665936250636140449354381299763336706049179119, []⟩,
    ⟨159, 8148143905337944345073782753637512644205873574663745002544561797417525199053346824733589503, 2658455991569831745807614120560689152, 8148143905337944345073782753637512644205873574663745002544561797417525199053346824733589503, 2037035976334486086268445688409378161051468393665936250636140449354381299763336706183397375, []⟩,
    ⟨176, 8148143905337944345073782753637512644205873574663745002544561797417525199053346824733589503, 5316911983139663491615228241121378304, 1606938044258990275541962092341162602522202993782792835301376, 2037035976334486086268445688409378161051468393665936250636140449354381299763336706183397375, []⟩,
    ⟨192, 8148143905337944345073782753637512644205873574663745002544561797417525199053346824733589503, 43556142965880123323311949751266331066368, 421249166674228746791672110734681729275580381602196445017243910144, 2037035976334486086268445688409378161051468393665936250636140449354381299763336706183397375, []⟩,
    ⟨203, 8148143905337944345073782753637512644205873574663745002544561797417525199053346824733589503, 89202980794122492566142873090593446023921664, 862718293348820473429344482784628181556388621521298319395315527974912, 2037035976334486086268445688409378161051468393665936250636140449354381299763336706183397375, []⟩]
  | .CallStatement => [
    ⟨21, 8148143905337944345073782753637512644205873574663745002544561797417525199053346824733589503, 2658455991569831745807614120560689152, 8148143905337944345073782753637512644205873574663745002544561797417525199053346824733589503, 2037035976334486086268445688409378161051468393665936250636140449354381299763336706183397375, []⟩,
    ⟨103, 8148143905337944345073782753637512644205873574663745002544561797417525199053346824733589503, 302231454903657293676544, 8148143905337944345073782753637512644205873574663745002544561797417525199053346824733589503, 2037035976334486086268445688409378161051468393665936229036185517849498365076471976493579759, []⟩,
    ⟨139, 8148143905337944345073782753637512644205873574663745002544561797417525199053346824733589503, 1606938044258990275541962092341162602522202993782792835301375, 8148143905337944345073782753637512644205873574663745002544561797417525199053346824733589503, 2037035976334486086268445688409378161051468393665936250636140449354381299763336706049179119, []⟩,
    ⟨160, 8148143905337944345073782753637512644205873574663745002544561797417525199053346824733589503, 2658455991569831745807614120560689152, 1024, 2037035976334486086268445688409378161051468393665936250636140449354381299763336706183397375, [⟨121, 0, 1024⟩]⟩,
    ⟨185, 8148143905337944345073782753637512644205873574663745002544561797417525199053346824733589503, 302231454903657293676544, 8148143905337944345073782753637512644205873574663745002544561797417525199053346824733589503, 2037035976334486086268445688409378161051468393665936229036185517849498365076471976493579759, []⟩]
  | .Constraint => [
    ⟨26, 8148143905337944345073782753637512644205873574663745002544561797417525199053346824733589503, 36893488147419103232, 8148143905337944345073782753637512644205873574663745002544561797417525199053346824733589503, 2037035976334486086268445688409378161051468393665936250636140449354381299763336706049179135, []⟩,
    ⟨27, 8148143905337944345073782753637512644205873574663745002544561797417525199053346824733589503, 2658455991569831745807614120560689152, 64, 2037035976334486086268445688409378161051468393665936250636140449354381299763336706183397375, [⟨121, 0, 64⟩]⟩,
    ⟨32, 8148143905337944345073782753637512644205873574663745002544561797417525199053346824733589503, 1180591620717411303424, 36028797018963968, 2037035976334486086268445688409378161051468393665936250636140449354381299763336706183397375, [⟨70, 0, 36028797018963968⟩]⟩,
    ⟨61, 8148143905337944345073782753637512644205873574663745002544561797417525199053346824733589503, 3541774862152233910272, 2787593149816327893296427693888359775600640, 2037035976334486086268445688409378161051468393665936250636140449354381299763336706183397375, [⟨70, 0, 604462909807314587353088⟩, ⟨71, 41538374868278621028243970633760768, 2787593149816327892691964784081045188247552⟩]⟩,
    ⟨84, 8148143905337944345073782753637512644205873574663745002544561797417525199053346824733589503, 39614383488587213191554007040, 8148143905337944345073782753637512644205873574663745002544561797417525199053346824733589503, 2037035976334486086268445688409378161051468393665936229036185517849498365076471976493579759, []⟩,
    ⟨87, 8148143905337944345073782753637512644205873574663745002544561797417525199053346824733589503, 1180591620717411303424, 8148143905337944345073782753637512644205873574663745002544561797417525199053346824733589503, 2037035976334486086268445688409378161051468393665936250636140449354381299763336706183397375, []⟩,
    ⟨98, 8148143905337944345073782753637512644205873574663745002544561797417525199053346824733589503, 1180591620717411303424, 8148143905337944345073782753637512644205873574663745002544561797417525199053346824733589503, 2037035976334486086268445688409378161051468393665936250636140449354381299763336706183397375, []⟩,
    ⟨146, 8148143905337944345073782753637512644205873574663745002544561797417525199053346824733589503, 4722366482869645213696, 5986310706507378352962293074805895248510699696029696, 2037035976334486086268445688409378161051468393665936250636140449354381299763336706183397375, [⟨72, 0, 5986310706507378352962293074805895248510699696029696⟩]⟩]
  | .CaseExpr => [
    ⟨4, 8148143905337944345073782753637512644205873574663745002544561797417525199053346824733589503, 1606938044258990275541962092341162602522202993782792835301375, 8148143905337944345073782753637512644205873574663745002544561797417525199053346824733589503, 2037035976334486086268445688409378161051468393665936229036185517849498365076471976493579759, []⟩,
    ⟨8, 8148143905337944345073782753637512644205873574663745002544561797417525199053346824733589503, 1073741824, 53919893334301279589334030174039261347274288920639008688121543917568, 2037035976334486086268445688409378161051468393665936250636140449354381299763336706183397375, []⟩,
    ⟨9, 8148143905337944345073782753637512644205873574663745002544561797417525199053346824733589503, 1180591620717411303424, 536870912, 2037035976334486086268445688409378161051468393665936250636140449354381299763336706183397375, [⟨70, 0, 536870912⟩]⟩,
    ⟨27, 8148143905337944345073782753637512644205873574663745002544561797417525199053346824733589503, 2658455991569831745807614120560689152, 64, 2037035976334486086268445688409378161051468393665936250636140449354381299763336706183397375, [⟨121, 0, 64⟩]⟩,
    ⟨54, 8148143905337944345073782753637512644205873574663745002544561797417525199053346824733589503, 1180591620717411303424, 8148143905337944345073782753637512644205873574663745002544561797417525199053346824733589503, 2037035976334486086268445688409378161051468393665936250636140449354381299763336706183397375, []⟩,
    ⟨64, 8148143905337944345073782753637512644205873574663745002544561797417525199053346824733589503, 1606938044258990275541962092341162602522202993782792835301375, 8148143905337944345073782753637512644205873574663745002544561797417525199053346824733589503, 2037035976334486086268445688409378161051468393665936250636140449354381299763336706049179119, []⟩,
    ⟨118, 8148143905337944345073782753637512644205873574663745002544561797417525199053346824733589503, 1180591620717411303424, 8148143905337944345073782753637512644205873574663745002544561797417525199053346824733589503, 2037035976334486086268445688409378161051468393665936250636140449354381299763336706183397375, []⟩,
    ⟨124, 8148143905337944345073782753637512644205873574663745002544561797417525199053346824733589503, 1180591620717411303424, 4722366482870718955520, 2037035976334486086268445688409378161051468393665936250636140449354381299763336706183397375, [⟨70, 0, 4722366482870718955520⟩]⟩,
    ⟨158, 8148143905337944345073782753637512644205873574663745002544561797417525199053346824733589503, 1606938044258990275541962092341162602522202993782792835301375, 8148143905337944345073782753637512644205873574663745002544561797417525199053346824733589503, 2037035976334486086268445688409378161051468393665936250636140449354381299763336706049179119, []⟩]
  | .CaseExprArm => [
    ⟨64, 8148143905337944345073782753637512644205873574663745002544561797417525199053346824733589503, 1606938044258990275541962092341162602522202993782792835301375, 8148143905337944345073782753637512644205873574663745002544561797417525199053346824733589503, 2037035976334486086268445688409378161051468393665936250636140449354381299763336706049179119, []⟩,
    ⟨152, 8148143905337944345073782753637512644205873574663745002544561797417525199053346824733589503, 1606938044258990275541962092341162602522202993782792835301375, 8148143905337944345073782753637512644205873574663745002544561797417525199053346824733589503, 2037035976334486086268445688409378161051468393665936250636140449354381299763336706049179119, []⟩,
    ⟨179, 8148143905337944345073782753637512644205873574663745002544561797417525199053346824733589503, 1180591620717411303424, 8148143905337944345073782753637512644205873574663745002544561797417525199053346824733589503, 2037035976334486086268445688409378161051468393665936250636140449354381299763336706183397375, []⟩]
  | .CaseStatement => [
    ⟨8, 8148143905337944345073782753637512644205873574663745002544561797417525199053346824733589503, 4294967296, 53919893334301279589334030174039261347274288920639008688121543917568, 2037035976334486086268445688409378161051468393665936250636140449354381299763336706183397375, []⟩,
    ⟨21, 8148143905337944345073782753637512644205873574663745002544561797417525199053346824733589503, 2658455991569831745807614120560689152, 8148143905337944345073782753637512644205873574663745002544561797417525199053346824733589503, 2037035976334486086268445688409378161051468393665936250636140449354381299763336706183397375, []⟩,
    ⟨55, 8148143905337944345073782753637512644205873574663745002544561797417525199053346824733589503, 1180591620717411303424, 8148143905337944345073782753637512644205873574663745002544561797417525199053346824733589503, 2037035976334486086268445688409378161051468393665936250636140449354381299763336706183397375, []⟩,
    ⟨64, 8148143905337944345073782753637512644205873574663745002544561797417525199053346824733589503, 1606938044258990275541962092341162602522202993782792835301375, 8148143905337944345073782753637512644205873574663745002544561797417525199053346824733589503, 2037035976334486086268445688409378161051468393665936250636140449354381299763336706049179119, []⟩,
    ⟨103, 8148143905337944345073782753637512644205873574663745002544561797417525199053346824733589503, 302231454903657293676544, 8148143905337944345073782753637512644205873574663745002544561797417525199053346824733589503, 2037035976334486086268445688409378161051468393665936229036185517849498365076471976493579759, []⟩,
    ⟨160, 8148143905337944345073782753637512644205873574663745002544561797417525199053346824733589503, 2658455991569831745807614120560689152, 1024, 2037035976334486086268445688409378161051468393665936250636140449354381299763336706183397375, [⟨121, 0, 1024⟩]⟩,
    ⟨185, 8148143905337944345073782753637512644205873574663745002544561797417525199053346824733589503, 302231454903657293676544, 8148143905337944345073782753637512644205873574663745002544561797417525199053346824733589503, 2037035976334486086268445688409378161051468393665936229036185517849498365076471976493579759, []⟩]
  | .CaseStatementArm => [
    ⟨64, 8148143905337944345073782753637512644205873574663745002544561797417525199053346824733589503, 1606938044258990275541962092341162602522202993782792835301375, 8148143905337944345073782753637512644205873574663745002544561797417525199053346824733589503, 2037035976334486086268445688409378161051468393665936250636140449354381299763336706049179119, []⟩,
    ⟨168, 8148143905337944345073782753637512644205873574663745002544561797417525199053346824733589503, 1606938044258990275541962092341162602522202993782792835301375, 8148143905337944345073782753637512644205873574663745002544561797417525199053346824733589503, 2037035976334486086268445688409378161051468393665935888753818596911034901701864544725368815, [⟨118, 0, 3064991081731777716716694054300618367237478244367204352⟩]⟩,
    ⟨179, 8148143905337944345073782753637512644205873574663745002544561797417525199053346824733589503, 1180591620717411303424, 8148143905337944345073782753637512644205873574663745002544561797417525199053346824733589503, 2037035976334486086268445688409378161051468393665936250636140449354381299763336706183397375, []⟩]
  | .CastArgument => [
    ⟨16, 8148143905337944345073782753637512644205873574663745002544561797417525199053346824733589503, 1606938044258990275541962092341162602522202993782792835301375, 8148143905337944345073782753637512644205873574663745002544561797417525199053346824733589503, 2037035976334486086268445688409378161051468393665936250636140449354381299763336706049179119, []⟩,
    ⟨17, 8148143905337944345073782753637512644205873574663745002544561797417525199053346824733589503, 680564733841876926926749214863536422912, 8148143905337944345073782753637512644205873574663745002544561797417525199053346824733589503, 2037035976334486086268445688409378161051468393665936250636140449354381299763336706183397375, []⟩,
    ⟨73, 8148143905337944345073782753637512644205873574663745002544561797417525199053346824733589503, 4722366482869645213696, 158456325028528675187087900672, 2037035976334486086268445688409378161051468393665936250636140449354381299763336706183397375, [⟨72, 0, 158456325028528675187087900672⟩]⟩]
  | .CreateFunctionStatement => [
    ⟨3, 8148143905337944345073782753637512644205873574663745002544561797417525199053346824733589503, 1180591620717411303424, 8388608, 2037035976334486086268445688409378161051468393665936250636140449354381299763336706183397375, [⟨70, 0, 8388608⟩]⟩,
    ⟨9, 8148143905337944345073782753637512644205873574663745002544561797417525199053346824733589503, 118059162071741130342400, 8148143905337944345073782753637512644205873574663745002544561797417525199053346824733589503, 2037035976334486086268445688409378161051468393665936250636140449354381299763336706183397375, [⟨75, 0, 536870912⟩, ⟨76, 0, 536870912⟩]⟩,
    ⟨21, 8148143905337944345073782753637512644205873574663745002544561797417525199053346824733589503, 2658455991569831745807614120560689152, 8148143905337944345073782753637512644205873574663745002544561797417525199053346824733589503, 2037035976334486086268445688409378161051468393665936250636140449354381299763336706183397375, []⟩,
    ⟨30, 8148143905337944345073782753637512644205873574663745002544561797417525199053346824733589503, 2361183241434822606848, 8148143905337944345073782753637512644205873574663745002544561797417525199053346824733589503, 2037035976334486086268445688409378161051468393665936250636140449354381299763336706183397375, [⟨71, 41538374868278621028243970633760768, 8148143905337944345073782753637512644205873574663745002544561797417525199053346824733589503⟩]⟩,
    ⟨43, 8148143905337944345073782753637512644205873574663745002544561797417525199053346824733589503, 1180591620717411303424, 8148143905337944345073782753637512644205873574663745002544561797417525199053346824733589503, 2037035976334486086268445688409378161051468393665936250636140449354381299763336706183397375, []⟩,
    ⟨79, 8148143905337944345073782753637512644205873574663745002544561797417525199053346824733589503, 590295810358705651712, 8148143905337944345073782753637512644205873574663745002544561797417525199053346824733589503, 2037035976334486086268445688409378161051468393665936250636140449354381299763336706183397375, []⟩,
    ⟨84, 8148143905337944345073782753637512644205873574663745002544561797417525199053346824733589503, 39614383488587213191554007040, 8148143905337944345073782753637512644205873574663745002544561797417525199053346824733589503, 2037035976334486086268445688409378161051468393665936229036185517849498365076471976493579759, []⟩,
    ⟨87, 8148143905337944345073782753637512644205873574663745002544561797417525199053346824733589503, 1180591620717411303424, 8148143905337944345073782753637512644205873574663745002544561797417525199053346824733589503, 2037035976334486086268445688409378161051468393665936250636140449354381299763336706183397375, []⟩,
    ⟨101, 8148143905337944345073782753637512644205873574663745002544561797417525199053346824733589503, 4722366482869645213696, 8148143905337944345073782753637512644205873574663745002544561797417525199053346824733589503, 2037035976334486086268445688409378161051468393665936250636140449354381299763336706183397375, []⟩,
    ⟨103, 8148143905337944345073782753637512644205873574663745002544561797417525199053346824733589503, 302231454903657293676544, 8148143905337944345073782753637512644205873574663745002544561797417525199053346824733589503, 2037035976334486086268445688409378161051468393665936229036185517849498365076471976493579759, []⟩,
    ⟨122, 8148143905337944345073782753637512644205873574663745002544561797417525199053346824733589503, 37778931862957161709568, 356811923176489970264571492362373784095686656, 2037035976334486086268445688409378161051468393665936250636140449354381299763336706183397375, [⟨75, 0, 356811923176489970264571492362373784095686656⟩]⟩,
    ⟨123, 8148143905337944345073782753637512644205873574663745002544561797417525199053346824733589503, 1180591620717411303424, 8148143905337944345073782753637512644205873574663745002544561797417525199053346824733589503, 2037035976334486086268445688409378161051468393665936250636140449354381299763336706183397375, []⟩,
    ⟨147, 8148143905337944345073782753637512644205873574663745002544561797417525199053346824733589503, 1180591620717411303424, 11972621413014756705924586149611790497021399392059392, 2037035976334486086268445688409378161051468393665936250636140449354381299763336706183397375, [⟨70, 0, 11972621413014756705924586149611790497021399392059392⟩]⟩,
    ⟨153, 8148143905337944345073782753637512644205873574663745002544561797417525199053346824733589503, 18889465931478580854784, 6129982163463555433433388108601236734474956488734408704, 2037035976334486086268445688409378161051468393665936250636140449354381299763336706183397375, []⟩,
    ⟨160, 8148143905337944345073782753637512644205873574663745002544561797417525199053346824733589503, 2658455991569831745807614120560689152, 1024, 2037035976334486086268445688409378161051468393665936250636140449354381299763336706183397375, [⟨121, 0, 1024⟩]⟩,
    ⟨173, 8148143905337944345073782753637512644205873574663745002544561797417525199053346824733589503, 1180591620717411303424, 803469022129495137770981046170581301261101496891396417650688, 2037035976334486086268445688409378161051468393665936250636140449354381299763336706183397375, [⟨70, 0, 803469022129495137770981046170581301261101496891396417650688⟩]⟩,
    ⟨178, 8148143905337944345073782753637512644205873574663745002544561797417525199053346824733589503, 1180591620717411303424, 9641628265553941653251772554046975615133217962696757011808256, 2037035976334486086268445688409378161051468393665936250636140449354381299763336706183397375, [⟨70, 0, 9641628265553941653251772554046975615133217962696757011808256⟩]⟩,
    ⟨185, 8148143905337944345073782753637512644205873574663745002544561797417525199053346824733589503, 302231454903657293676544, 8148143905337944345073782753637512644205873574663745002544561797417525199053346824733589503, 2037035976334486086268445688409378161051468393665936229036185517849498365076471976493579759, []⟩,
    ⟨196, 8148143905337944345073782753637512644205873574663745002544561797417525199053346824733589503, 1180591620717411303424, 8148143905337944345073782753637512644205873574663745002544561797417525199053346824733589503, 2037035976334486086268445688409378161051468393665936250636140449354381299763336706183397375, []⟩]
  | .CreateIndexStatement => [
    ⟨21, 8148143905337944345073782753637512644205873574663745002544561797417525199053346824733589503, 2658455991569831745807614120560689152, 8148143905337944345073782753637512644205873574663745002544561797417525199053346824733589503, 2037035976334486086268445688409378161051468393665936250636140449354381299763336706183397375, []⟩,
    ⟨23, 8148143905337944345073782753637512644205873574663745002544561797417525199053346824733589503, 55340232221128654848, 8148143905337944345073782753637512644205873574663745002544561797417525199053346824733589503, 2037035976334486086268445688409378161051468393665936229036185517849498365076471976493579759, []⟩,
    ⟨84, 8148143905337944345073782753637512644205873574663745002544561797417525199053346824733589503, 39614383488587213191554007040, 8148143905337944345073782753637512644205873574663745002544561797417525199053346824733589503, 2037035976334486086268445688409378161051468393665936229036185517849498365076471976493579759, []⟩,
    ⟨87, 8148143905337944345073782753637512644205873574663745002544561797417525199053346824733589503, 1180591620717411303424, 8148143905337944345073782753637512644205873574663745002544561797417525199053346824733589503, 2037035976334486086268445688409378161051468393665936250636140449354381299763336706183397375, []⟩,
    ⟨103, 8148143905337944345073782753637512644205873574663745002544561797417525199053346824733589503, 302231454903657293676544, 8148143905337944345073782753637512644205873574663745002544561797417525199053346824733589503, 2037035976334486086268445688409378161051468393665936229036185517849498365076471976493579759, []⟩,
    ⟨120, 8148143905337944345073782753637512644205873574663745002544561797417525199053346824733589503, 1180591620717411303424, 8148143905337944345073782753637512644205873574663745002544561797417525199053346824733589503, 2037035976334486086268445688409378161051468393665936250636140449354381299763336706183397375, []⟩,
    ⟨122, 8148143905337944345073782753637512644205873574663745002544561797417525199053346824733589503, 37778931862957161709568, 356811923176489970264571492362373784095686656, 2037035976334486086268445688409378161051468393665936250636140449354381299763336706183397375, [⟨75, 0, 356811923176489970264571492362373784095686656⟩]⟩,
    ⟨123, 8148143905337944345073782753637512644205873574663745002544561797417525199053346824733589503, 1180591620717411303424, 8148143905337944345073782753637512644205873574663745002544561797417525199053346824733589503, 2037035976334486086268445688409378161051468393665936250636140449354381299763336706183397375, []⟩,
    ⟨133, 8148143905337944345073782753637512644205873574663745002544561797417525199053346824733589503, 1427247692705959881058285969449495136382746624, 182687704666362864775460604089535377456991567872, 2037035976334486086268445688409378161051468393665936250636140449354381299763336706183397375, [⟨150, 0, 182687704666362864775460604089535377456991567872⟩]⟩,
    ⟨160, 8148143905337944345073782753637512644205873574663745002544561797417525199053346824733589503, 2658455991569831745807614120560689152, 1024, 2037035976334486086268445688409378161051468393665936250636140449354381299763336706183397375, [⟨121, 0, 1024⟩]⟩,
    ⟨169, 8148143905337944345073782753637512644205873574663745002544561797417525199053346824733589503, 37778931862957161709568, 100433627766186892221372630771322662657637687111424552206336, 2037035976334486086268445688409378161051468393665936250636140449354381299763336706183397375, [⟨75, 0, 100433627766186892221372630771322662657637687111424552206336⟩]⟩,
    ⟨175, 8148143905337944345073782753637512644205873574663745002544561797417525199053346824733589503, 39614383488587213191554007040, 8148143905337944345073782753637512644205873574663745002544561797417525199053346824733589503, 2037035976334486086268445688409378161051468393665936229036185517849498365076471976493579759, []⟩,
    ⟨185, 8148143905337944345073782753637512644205873574663745002544561797417525199053346824733589503, 302231454903657293676544, 8148143905337944345073782753637512644205873574663745002544561797417525199053346824733589503, 2037035976334486086268445688409378161051468393665936229036185517849498365076471976493579759, []⟩,
    ⟨196, 8148143905337944345073782753637512644205873574663745002544561797417525199053346824733589503, 2361183241434822606848, 8148143905337944345073782753637512644205873574663745002544561797417525199053346824733589503, 2037035976334486086268445688409378161051468393665936250636140449354381299763336706183397375, [⟨71, 41538374868278621028243970633760768, 8148143905337944345073782753637512644205873574663745002544561797417525199053346824733589503⟩]⟩]
  | .CreateModelStatement => [
    ⟨21, 8148143905337944345073782753637512644205873574663745002544561797417525199053346824733589503, 2658455991569831745807614120560689152, 8148143905337944345073782753637512644205873574663745002544561797417525199053346824733589503, 2037035976334486086268445688409378161051468393665936250636140449354381299763336706183397375, []⟩,
    ⟨84, 8148143905337944345073782753637512644205873574663745002544561797417525199053346824733589503, 39614383488587213191554007040, 8148143905337944345073782753637512644205873574663745002544561797417525199053346824733589503, 2037035976334486086268445688409378161051468393665936229036185517849498365076471976493579759, []⟩,
    ⟨87, 8148143905337944345073782753637512644205873574663745002544561797417525199053346824733589503, 1180591620717411303424, 8148143905337944345073782753637512644205873574663745002544561797417525199053346824733589503, 2037035976334486086268445688409378161051468393665936250636140449354381299763336706183397375, []⟩,
    ⟨93, 8148143905337944345073782753637512644205873574663745002544561797417525199053346824733589503, 37778931862957161709568, 10384593717069655257060992658440192, 2037035976334486086268445688409378161051468393665936250636140449354381299763336706183397375, [⟨75, 0, 10384593717069655257060992658440192⟩]⟩,
    ⟨103, 8148143905337944345073782753637512644205873574663745002544561797417525199053346824733589503, 302231454903657293676544, 8148143905337944345073782753637512644205873574663745002544561797417525199053346824733589503, 2037035976334486086268445688409378161051468393665936229036185517849498365076471976493579759, []⟩,
    ⟨122, 8148143905337944345073782753637512644205873574663745002544561797417525199053346824733589503, 37778931862957161709568, 356811923176489970264571492362373784095686656, 2037035976334486086268445688409378161051468393665936250636140449354381299763336706183397375, [⟨75, 0, 356811923176489970264571492362373784095686656⟩]⟩,
    ⟨123, 8148143905337944345073782753637512644205873574663745002544561797417525199053346824733589503, 1180591620717411303424, 8148143905337944345073782753637512644205873574663745002544561797417525199053346824733589503, 2037035976334486086268445688409378161051468393665936250636140449354381299763336706183397375, []⟩,
    ⟨127, 8148143905337944345073782753637512644205873574663745002544561797417525199053346824733589503, 37778931862957161709568, 22835963083295358096932575511191922182123945984, 2037035976334486086268445688409378161051468393665936250636140449354381299763336706183397375, [⟨75, 0, 22835963083295358096932575511191922182123945984⟩]⟩,
    ⟨143, 8148143905337944345073782753637512644205873574663745002544561797417525199053346824733589503, 75557863725914323419136, 536870912, 2037035976334486086268445688409378161051468393665936250636140449354381299763336706183397375, [⟨76, 0, 536870912⟩]⟩,
    ⟨147, 8148143905337944345073782753637512644205873574663745002544561797417525199053346824733589503, 2361183241434822606848, 11972621413014756705924586149611790497021399392059392, 2037035976334486086268445688409378161051468393665936250636140449354381299763336706183397375, [⟨71, 41538374868278621028243970633760768, 11972621413014756705924586149611790497021399392059392⟩]⟩,
    ⟨160, 8148143905337944345073782753637512644205873574663745002544561797417525199053346824733589503, 2658455991569831745807614120560689152, 1024, 2037035976334486086268445688409378161051468393665936250636140449354381299763336706183397375, [⟨121, 0, 1024⟩]⟩,
    ⟨185, 8148143905337944345073782753637512644205873574663745002544561797417525199053346824733589503, 302231454903657293676544, 8148143905337944345073782753637512644205873574663745002544561797417525199053346824733589503, 2037035976334486086268445688409378161051468393665936229036185517849498365076471976493579759, []⟩,
    ⟨187, 8148143905337944345073782753637512644205873574663745002544561797417525199053346824733589503, 37778931862957161709568, 536870912, 2037035976334486086268445688409378161051468393665936250636140449354381299763336706183397375, [⟨75, 0, 536870912⟩]⟩,
    ⟨189, 8148143905337944345073782753637512644205873574663745002544561797417525199053346824733589503, 37778931862957161709568, 8148143905337944345073782753637512644205873574663745002544561797417525199053346824733589503, 2037035976334486086268445688409378161051468393665936250636140449354381299763336706183397375, []⟩,
    ⟨196, 8148143905337944345073782753637512644205873574663745002544561797417525199053346824733589503, 1180591620717411303424, 8148143905337944345073782753637512644205873574663745002544561797417525199053346824733589503, 2037035976334486086268445688409378161051468393665936250636140449354381299763336706183397375, []⟩]
  | .CreateProcedureStatement => [
    ⟨9, 8148143905337944345073782753637512644205873574663745002544561797417525199053346824733589503, 4722366482869645213696, 536870912, 2037035976334486086268445688409378161051468393665936250636140449354381299763336706183397375, [⟨72, 0, 536870912⟩]⟩,
    ⟨21, 8148143905337944345073782753637512644205873574663745002544561797417525199053346824733589503, 2658455991569831745807614120560689152, 8148143905337944345073782753637512644205873574663745002544561797417525199053346824733589503, 2037035976334486086268445688409378161051468393665936250636140449354381299763336706183397375, []⟩,
    ⟨66, 8148143905337944345073782753637512644205873574663745002544561797417525199053346824733589503, 2361183241434822606848, 618970019642690137449562112, 2037035976334486086268445688409378161051468393665936250636140449354381299763336706183397375, [⟨71, 41538374868278621028243970633760768, 618970019642690137449562112⟩]⟩,
    ⟨79, 8148143905337944345073782753637512644205873574663745002544561797417525199053346824733589503, 590295810358705651712, 8148143905337944345073782753637512644205873574663745002544561797417525199053346824733589503, 2037035976334486086268445688409378161051468393665936250636140449354381299763336706183397375, []⟩,
    ⟨84, 8148143905337944345073782753637512644205873574663745002544561797417525199053346824733589503, 39614383488587213191554007040, 8148143905337944345073782753637512644205873574663745002544561797417525199053346824733589503, 2037035976334486086268445688409378161051468393665936229036185517849498365076471976493579759, []⟩,
    ⟨87, 8148143905337944345073782753637512644205873574663745002544561797417525199053346824733589503, 1180591620717411303424, 8148143905337944345073782753637512644205873574663745002544561797417525199053346824733589503, 2037035976334486086268445688409378161051468393665936250636140449354381299763336706183397375, []⟩,
    ⟨101, 8148143905337944345073782753637512644205873574663745002544561797417525199053346824733589503, 4722366482869645213696, 10633823966279326983230456482242756608, 2037035976334486086268445688409378161051468393665936250636140449354381299763336706183397375, [⟨72, 0, 10633823966279326983230456482242756608⟩]⟩,
    ⟨103, 8148143905337944345073782753637512644205873574663745002544561797417525199053346824733589503, 302231454903657293676544, 8148143905337944345073782753637512644205873574663745002544561797417525199053346824733589503, 2037035976334486086268445688409378161051468393665936229036185517849498365076471976493579759, []⟩,
    ⟨122, 8148143905337944345073782753637512644205873574663745002544561797417525199053346824733589503, 37778931862957161709568, 356811923176489970264571492362373784095686656, 2037035976334486086268445688409378161051468393665936250636140449354381299763336706183397375, [⟨75, 0, 356811923176489970264571492362373784095686656⟩]⟩,
    ⟨123, 8148143905337944345073782753637512644205873574663745002544561797417525199053346824733589503, 1180591620717411303424, 8148143905337944345073782753637512644205873574663745002544561797417525199053346824733589503, 2037035976334486086268445688409378161051468393665936250636140449354381299763336706183397375, []⟩,
    ⟨160, 8148143905337944345073782753637512644205873574663745002544561797417525199053346824733589503, 2658455991569831745807614120560689152, 1024, 2037035976334486086268445688409378161051468393665936250636140449354381299763336706183397375, [⟨121, 0, 1024⟩]⟩,
    ⟨167, 8148143905337944345073782753637512644205873574663745002544561797417525199053346824733589503, 1048576, 68719476736, 2037035976334486086268445688409378161051466932164298919733222245669548583480317050250854399, []⟩,
    ⟨185, 8148143905337944345073782753637512644205873574663745002544561797417525199053346824733589503, 302231454903657293676544, 8148143905337944345073782753637512644205873574663745002544561797417525199053346824733589503, 2037035976334486086268445688409378161051468393665936229036185517849498365076471976493579759, []⟩,
    ⟨196, 8148143905337944345073782753637512644205873574663745002544561797417525199053346824733589503, 1180591620717411303424, 8148143905337944345073782753637512644205873574663745002544561797417525199053346824733589503, 2037035976334486086268445688409378161051468393665936250636140449354381299763336706183397375, []⟩,
    ⟨202, 8148143905337944345073782753637512644205873574663745002544561797417525199053346824733589503, 2361183241434822606848, 862718293348820473429344482784628181556388621521298319395315527974912, 2037035976334486086268445688409378161051468393665936250636140449354381299763336706183397375, [⟨71, 41538374868278621028243970633760768, 862718293348820473429344482784628181556388621521298319395315527974912⟩]⟩]
  | .CreateReservationStatement => [
    ⟨9, 8148143905337944345073782753637512644205873574663745002544561797417525199053346824733589503, 1180591620717411303424, 536870912, 2037035976334486086268445688409378161051468393665936250636140449354381299763336706183397375, [⟨70, 0, 536870912⟩]⟩,
    ⟨21, 8148143905337944345073782753637512644205873574663745002544561797417525199053346824733589503, 2658455991569831745807614120560689152, 8148143905337944345073782753637512644205873574663745002544561797417525199053346824733589503, 2037035976334486086268445688409378161051468393665936250636140449354381299763336706183397375, []⟩,
    ⟨84, 8148143905337944345073782753637512644205873574663745002544561797417525199053346824733589503, 39614383488587213191554007040, 8148143905337944345073782753637512644205873574663745002544561797417525199053346824733589503, 2037035976334486086268445688409378161051468393665936229036185517849498365076471976493579759, []⟩,
    ⟨96, 8148143905337944345073782753637512644205873574663745002544561797417525199053346824733589503, 1180591620717411303424, 8148143905337944345073782753637512644205873574663745002544561797417525199053346824733589503, 2037035976334486086268445688409378161051468393665936250636140449354381299763336706183397375, []⟩,
    ⟨97, 8148143905337944345073782753637512644205873574663745002544561797417525199053346824733589503, 1606938044258990275541962092341162602522202993782792835301375, 8148143905337944345073782753637512644205873574663745002544561797417525199053346824733589503, 2037035976334486086268445688409378161051468393665936250636140449354381299763336706049179119, []⟩,
    ⟨103, 8148143905337944345073782753637512644205873574663745002544561797417525199053346824733589503, 302231454903657293676544, 8148143905337944345073782753637512644205873574663745002544561797417525199053346824733589503, 2037035976334486086268445688409378161051468393665936229036185517849498365076471976493579759, []⟩,
    ⟨122, 8148143905337944345073782753637512644205873574663745002544561797417525199053346824733589503, 37778931862957161709568, 356811923176489970264571492362373784095686656, 2037035976334486086268445688409378161051468393665936250636140449354381299763336706183397375, [⟨75, 0, 356811923176489970264571492362373784095686656⟩]⟩,
    ⟨160, 8148143905337944345073782753637512644205873574663745002544561797417525199053346824733589503, 2658455991569831745807614120560689152, 1024, 2037035976334486086268445688409378161051468393665936250636140449354381299763336706183397375, [⟨121, 0, 1024⟩]⟩,
    ⟨185, 8148143905337944345073782753637512644205873574663745002544561797417525199053346824733589503, 302231454903657293676544, 8148143905337944345073782753637512644205873574663745002544561797417525199053346824733589503, 2037035976334486086268445688409378161051468393665936229036185517849498365076471976493579759, []⟩,
    ⟨196, 8148143905337944345073782753637512644205873574663745002544561797417525199053346824733589503, 1180591620717411303424, 8148143905337944345073782753637512644205873574663745002544561797417525199053346824733589503, 2037035976334486086268445688409378161051468393665936250636140449354381299763336706183397375, []⟩]
  | .CreateRowAccessPolicyStatement => [
    ⟨21, 8148143905337944345073782753637512644205873574663745002544561797417525199053346824733589503, 2658455991569831745807614120560689152, 8148143905337944345073782753637512644205873574663745002544561797417525199053346824733589503, 2037035976334486086268445688409378161051468393665936250636140449354381299763336706183397375, []⟩,
    ⟨70, 8148143905337944345073782753637512644205873574663745002544561797417525199053346824733589503, 1180591620717411303424, 8148143905337944345073782753637512644205873574663745002544561797417525199053346824733589503, 2037035976334486086268445688409378161051468393665936250636140449354381299763336706183397375, []⟩,
    ⟨78, 8148143905337944345073782753637512644205873574663745002544561797417525199053346824733589503, 1180591620717411303424, 2535301200456458802993406410752, 2037035976334486086268445688409378161051468393665936250636140449354381299763336706183397375, [⟨70, 0, 2535301200456458802993406410752⟩]⟩,
    ⟨84, 8148143905337944345073782753637512644205873574663745002544561797417525199053346824733589503, 39614383488587213191554007040, 8148143905337944345073782753637512644205873574663745002544561797417525199053346824733589503, 2037035976334486086268445688409378161051468393665936229036185517849498365076471976493579759, []⟩,
    ⟨87, 8148143905337944345073782753637512644205873574663745002544561797417525199053346824733589503, 1180591620717411303424, 8148143905337944345073782753637512644205873574663745002544561797417525199053346824733589503, 2037035976334486086268445688409378161051468393665936250636140449354381299763336706183397375, []⟩,
    ⟨103, 8148143905337944345073782753637512644205873574663745002544561797417525199053346824733589503, 302231454903657293676544, 8148143905337944345073782753637512644205873574663745002544561797417525199053346824733589503, 2037035976334486086268445688409378161051468393665936229036185517849498365076471976493579759, []⟩,
    ⟨120, 8148143905337944345073782753637512644205873574663745002544561797417525199053346824733589503, 4722366482869645213696, 8148143905337944345073782753637512644205873574663745002544561797417525199053346824733589503, 2037035976334486086268445688409378161051468393665936250636140449354381299763336706183397375, []⟩,
    ⟨123, 8148143905337944345073782753637512644205873574663745002544561797417525199053346824733589503, 1180591620717411303424, 8148143905337944345073782753637512644205873574663745002544561797417525199053346824733589503, 2037035976334486086268445688409378161051468393665936250636140449354381299763336706183397375, []⟩,
    ⟨160, 8148143905337944345073782753637512644205873574663745002544561797417525199053346824733589503, 2658455991569831745807614120560689152, 1024, 2037035976334486086268445688409378161051468393665936250636140449354381299763336706183397375, [⟨121, 0, 1024⟩]⟩,
    ⟨181, 8148143905337944345073782753637512644205873574663745002544561797417525199053346824733589503, 37778931862957161709568, 8148143905337944345073782753637512644205873574663745002544561797417525199053346824733589503, 2037035976334486086268445688409378161051468393665936250636140449354381299763336706183397375, []⟩,
    ⟨185, 8148143905337944345073782753637512644205873574663745002544561797417525199053346824733589503, 302231454903657293676544, 8148143905337944345073782753637512644205873574663745002544561797417525199053346824733589503, 2037035976334486086268445688409378161051468393665936229036185517849498365076471976493579759, []⟩,
    ⟨194, 8148143905337944345073782753637512644205873574663745002544561797417525199053346824733589503, 4722366482869645213696, 8148143905337944345073782753637512644205873574663745002544561797417525199053346824733589503, 2037035976334486086268445688409378161051468393665936250636140449354381299763336706183397375, []⟩,
    ⟨196, 8148143905337944345073782753637512644205873574663745002544561797417525199053346824733589503, 1180591620717411303424, 8148143905337944345073782753637512644205873574663745002544561797417525199053346824733589503, 2037035976334486086268445688409378161051468393665936250636140449354381299763336706183397375, []⟩]
  | .CreateSchemaStatement => [
    ⟨21, 8148143905337944345073782753637512644205873574663745002544561797417525199053346824733589503, 2658455991569831745807614120560689152, 8148143905337944345073782753637512644205873574663745002544561797417525199053346824733589503, 2037035976334486086268445688409378161051468393665936250636140449354381299763336706183397375, []⟩,
    ⟨40, 8148143905337944345073782753637512644205873574663745002544561797417525199053346824733589503, 2361183241434822606848, 590295810358705651712, 2037035976334486086268445688409378161051468393665936250636140449354381299763336706183397375, [⟨71, 41538374868278621028243970633760768, 590295810358705651712⟩]⟩,
    ⟨66, 8148143905337944345073782753637512644205873574663745002544561797417525199053346824733589503, 1180591620717411303424, 618970019642690137449562112, 2037035976334486086268445688409378161051468393665936250636140449354381299763336706183397375, [⟨70, 0, 618970019642690137449562112⟩]⟩,
    ⟨84, 8148143905337944345073782753637512644205873574663745002544561797417525199053346824733589503, 39614383488587213191554007040, 8148143905337944345073782753637512644205873574663745002544561797417525199053346824733589503, 2037035976334486086268445688409378161051468393665936229036185517849498365076471976493579759, []⟩,
    ⟨87, 8148143905337944345073782753637512644205873574663745002544561797417525199053346824733589503, 1180591620717411303424, 8148143905337944345073782753637512644205873574663745002544561797417525199053346824733589503, 2037035976334486086268445688409378161051468393665936250636140449354381299763336706183397375, []⟩,
    ⟨103, 8148143905337944345073782753637512644205873574663745002544561797417525199053346824733589503, 302231454903657293676544, 8148143905337944345073782753637512644205873574663745002544561797417525199053346824733589503, 2037035976334486086268445688409378161051468393665936229036185517849498365076471976493579759, []⟩,
    ⟨122, 8148143905337944345073782753637512644205873574663745002544561797417525199053346824733589503, 37778931862957161709568, 356811923176489970264571492362373784095686656, 2037035976334486086268445688409378161051468393665936250636140449354381299763336706183397375, [⟨75, 0, 356811923176489970264571492362373784095686656⟩]⟩,
    ⟨160, 8148143905337944345073782753637512644205873574663745002544561797417525199053346824733589503, 2658455991569831745807614120560689152, 1024, 2037035976334486086268445688409378161051468393665936250636140449354381299763336706183397375, [⟨121, 0, 1024⟩]⟩,
    ⟨185, 8148143905337944345073782753637512644205873574663745002544561797417525199053346824733589503, 302231454903657293676544, 8148143905337944345073782753637512644205873574663745002544561797417525199053346824733589503, 2037035976334486086268445688409378161051468393665936229036185517849498365076471976493579759, []⟩,
    ⟨196, 8148143905337944345073782753637512644205873574663745002544561797417525199053346824733589503, 1180591620717411303424, 8148143905337944345073782753637512644205873574663745002544561797417525199053346824733589503, 2037035976334486086268445688409378161051468393665936250636140449354381299763336706183397375, []⟩,
    ⟨202, 8148143905337944345073782753637512644205873574663745002544561797417525199053346824733589503, 2361183241434822606848, 862718293348820473429344482784628181556388621521298319395315527974912, 2037035976334486086268445688409378161051468393665936250636140449354381299763336706183397375, [⟨71, 41538374868278621028243970633760768, 862718293348820473429344482784628181556388621521298319395315527974912⟩]⟩]
  | .CreateTableStatement => [
    ⟨9, 8148143905337944345073782753637512644205873574663745002544561797417525199053346824733589503, 75557863725914323419136, 536870912, 2037035976334486086268445688409378161051468393665936250636140449354381299763336706183397375, [⟨76, 0, 536870912⟩]⟩,
    ⟨18, 8148143905337944345073782753637512644205873574663745002544561797417525199053346824733589503, 4722366482869645213696, 562949953421312, 2037035976334486086268445688409378161051468393665936250636140449354381299763336706183397375, [⟨72, 0, 562949953421312⟩]⟩,
    ⟨19, 8148143905337944345073782753637512644205873574663745002544561797417525199053346824733589503, 1427247692705959881058285969449495136382746624, 1125899906842624, 2037035976334486086268445688409378161051468393665936250636140449354381299763336706183397375, [⟨150, 0, 1125899906842624⟩]⟩,
    ⟨21, 8148143905337944345073782753637512644205873574663745002544561797417525199053346824733589503, 2658455991569831745807614120560689152, 8148143905337944345073782753637512644205873574663745002544561797417525199053346824733589503, 2037035976334486086268445688409378161051468393665936250636140449354381299763336706183397375, []⟩,
    ⟨25, 8148143905337944345073782753637512644205873574663745002544561797417525199053346824733589503, 590295810358705651712, 8148143905337944345073782753637512644205873574663745002544561797417525199053346824733589503, 2037035976334486086268445688409378161051468393665936250636140449354381299763336706183397375, []⟩,
    ⟨40, 8148143905337944345073782753637512644205873574663745002544561797417525199053346824733589503, 2361183241434822606848, 590295810358705651712, 2037035976334486086268445688409378161051468393665936250636140449354381299763336706183397375, [⟨71, 41538374868278621028243970633760768, 590295810358705651712⟩]⟩,
    ⟨66, 8148143905337944345073782753637512644205873574663745002544561797417525199053346824733589503, 1180591620717411303424, 618970019642690137449562112, 2037035976334486086268445688409378161051468393665936250636140449354381299763336706183397375, [⟨70, 0, 618970019642690137449562112⟩]⟩,
    ⟨84, 8148143905337944345073782753637512644205873574663745002544561797417525199053346824733589503, 39614383488587213191554007040, 8148143905337944345073782753637512644205873574663745002544561797417525199053346824733589503, 2037035976334486086268445688409378161051468393665936229036185517849498365076471976493579759, []⟩,
    ⟨87, 8148143905337944345073782753637512644205873574663745002544561797417525199053346824733589503, 1180591620717411303424, 8148143905337944345073782753637512644205873574663745002544561797417525199053346824733589503, 2037035976334486086268445688409378161051468393665936250636140449354381299763336706183397375, []⟩,
    ⟨103, 8148143905337944345073782753637512644205873574663745002544561797417525199053346824733589503, 302231454903657293676544, 8148143905337944345073782753637512644205873574663745002544561797417525199053346824733589503, 2037035976334486086268445688409378161051468393665936229036185517849498365076471976493579759, []⟩,
    ⟨105, 8148143905337944345073782753637512644205873574663745002544561797417525199053346824733589503, 1180591620717411303424, 340282366920938463463662837807919923200, 2037035976334486086268445688409378161051468393665936250636140449354381299763336706183397375, [⟨70, 0, 340282366920938463463662837807919923200⟩]⟩,
    ⟨122, 8148143905337944345073782753637512644205873574663745002544561797417525199053346824733589503, 37778931862957161709568, 356811923176489970264571492362373784095686656, 2037035976334486086268445688409378161051468393665936250636140449354381299763336706183397375, [⟨75, 0, 356811923176489970264571492362373784095686656⟩]⟩,
    ⟨123, 8148143905337944345073782753637512644205873574663745002544561797417525199053346824733589503, 1180591620717411303424, 8148143905337944345073782753637512644205873574663745002544561797417525199053346824733589503, 2037035976334486086268445688409378161051468393665936250636140449354381299763336706183397375, []⟩,
    ⟨133, 8148143905337944345073782753637512644205873574663745002544561797417525199053346824733589503, 1427247692705959881058285969449495136382746624, 182687704666362864775460604089535377456991567872, 2037035976334486086268445688409378161051468393665936250636140449354381299763336706183397375, [⟨150, 0, 182687704666362864775460604089535377456991567872⟩]⟩,
    ⟨160, 8148143905337944345073782753637512644205873574663745002544561797417525199053346824733589503, 2658455991569831745807614120560689152, 1024, 2037035976334486086268445688409378161051468393665936250636140449354381299763336706183397375, [⟨121, 0, 1024⟩]⟩,
    ⟨163, 8148143905337944345073782753637512644205873574663745002544561797417525199053346824733589503, 1180591620717411303424, 25108406941546723055343157692830665664409421777856138051584, 2037035976334486086268445688409378161051468393665936250636140449354381299763336706183397375, [⟨70, 0, 25108406941546723055343157692830665664409421777856138051584⟩]⟩,
    ⟨164, 8148143905337944345073782753637512644205873574663745002544561797417525199053346824733589503, 39614383488587213191554007040, 8148143905337944345073782753637512644205873574663745002544561797417525199053346824733589503, 2037035976334486086268445688409378161051468393665936229036185517849498365076471976493579759, []⟩,
    ⟨178, 8148143905337944345073782753637512644205873574663745002544561797417525199053346824733589503, 1180591620717411303424, 9641628265553941653251772554046975615133217962696757011808256, 2037035976334486086268445688409378161051468393665936250636140449354381299763336706183397375, [⟨70, 0, 9641628265553941653251772554046975615133217962696757011808256⟩]⟩,
    ⟨185, 8148143905337944345073782753637512644205873574663745002544561797417525199053346824733589503, 302231454903657293676544, 8148143905337944345073782753637512644205873574663745002544561797417525199053346824733589503, 2037035976334486086268445688409378161051468393665936229036185517849498365076471976493579759, []⟩,
    ⟨196, 8148143905337944345073782753637512644205873574663745002544561797417525199053346824733589503, 1180591620717411303424, 8148143905337944345073782753637512644205873574663745002544561797417525199053346824733589503, 2037035976334486086268445688409378161051468393665936250636140449354381299763336706183397375, []⟩,
    ⟨202, 8148143905337944345073782753637512644205873574663745002544561797417525199053346824733589503, 2361183241434822606848, 862718293348820473429344482784628181556388621521298319395315527974912, 2037035976334486086268445688409378161051468393665936250636140449354381299763336706183397375, [⟨71, 41538374868278621028243970633760768, 862718293348820473429344482784628181556388621521298319395315527974912⟩]⟩,
    ⟨204, 8148143905337944345073782753637512644205873574663745002544561797417525199053346824733589503, 356811923176489970264571492362373784095686656, 862718293348820473429344482784628181556388621521298319395315527974912, 2037035976334486086268445688409378161051468393665936250636140449354381299763336706183397375, []⟩]
  | .CreateViewStatement => [
    ⟨9, 8148143905337944345073782753637512644205873574663745002544561797417525199053346824733589503, 77919046967349146025984, 536870912, 2037035976334486086268445688409378161051468393665936250636140449354381299763336706183397375, [⟨71, 41538374868278621028243970633760768, 536870912⟩, ⟨76, 0, 536870912⟩]⟩,
    ⟨19, 8148143905337944345073782753637512644205873574663745002544561797417525199053346824733589503, 1427247692705959881058285969449495136382746624, 1125899906842624, 2037035976334486086268445688409378161051468393665936250636140449354381299763336706183397375, [⟨150, 0, 1125899906842624⟩]⟩,
    ⟨21, 8148143905337944345073782753637512644205873574663745002544561797417525199053346824733589503, 2658455991569831745807614120560689152, 8148143905337944345073782753637512644205873574663745002544561797417525199053346824733589503, 2037035976334486086268445688409378161051468393665936250636140449354381299763336706183397375, []⟩,
    ⟨24, 8148143905337944345073782753637512644205873574663745002544561797417525199053346824733589503, 9223372036854775808, 4, 2037035976334486086268445688409378161051468393665936250636140449354381299763336706183397375, []⟩,
    ⟨84, 8148143905337944345073782753637512644205873574663745002544561797417525199053346824733589503, 39614383488587213191554007040, 8148143905337944345073782753637512644205873574663745002544561797417525199053346824733589503, 2037035976334486086268445688409378161051468393665936229036185517849498365076471976493579759, []⟩,
    ⟨87, 8148143905337944345073782753637512644205873574663745002544561797417525199053346824733589503, 1180591620717411303424, 8148143905337944345073782753637512644205873574663745002544561797417525199053346824733589503, 2037035976334486086268445688409378161051468393665936250636140449354381299763336706183397375, []⟩,
    ⟨103, 8148143905337944345073782753637512644205873574663745002544561797417525199053346824733589503, 302231454903657293676544, 8148143905337944345073782753637512644205873574663745002544561797417525199053346824733589503, 2037035976334486086268445688409378161051468393665936229036185517849498365076471976493579759, []⟩,
    ⟨109, 8148143905337944345073782753637512644205873574663745002544561797417525199053346824733589503, 1180591620717411303424, 21778071482940061661655974875633165533184, 2037035976334486086268445688409378161051468393665936250636140449354381299763336706183397375, [⟨70, 0, 21778071482940061661655974875633165533184⟩]⟩,
    ⟨122, 8148143905337944345073782753637512644205873574663745002544561797417525199053346824733589503, 37778931862957161709568, 356811923176489970264571492362373784095686656, 2037035976334486086268445688409378161051468393665936250636140449354381299763336706183397375, [⟨75, 0, 356811923176489970264571492362373784095686656⟩]⟩,
    ⟨123, 8148143905337944345073782753637512644205873574663745002544561797417525199053346824733589503, 1180591620717411303424, 8148143905337944345073782753637512644205873574663745002544561797417525199053346824733589503, 2037035976334486086268445688409378161051468393665936250636140449354381299763336706183397375, []⟩,
    ⟨133, 8148143905337944345073782753637512644205873574663745002544561797417525199053346824733589503, 1427247692705959881058285969449495136382746624, 182687704666362864775460604089535377456991567872, 2037035976334486086268445688409378161051468393665936250636140449354381299763336706183397375, [⟨150, 0, 182687704666362864775460604089535377456991567872⟩]⟩,
    ⟨160, 8148143905337944345073782753637512644205873574663745002544561797417525199053346824733589503, 2658455991569831745807614120560689152, 1024, 2037035976334486086268445688409378161051468393665936250636140449354381299763336706183397375, [⟨121, 0, 1024⟩]⟩,
    ⟨185, 8148143905337944345073782753637512644205873574663745002544561797417525199053346824733589503, 302231454903657293676544, 8148143905337944345073782753637512644205873574663745002544561797417525199053346824733589503, 2037035976334486086268445688409378161051468393665936229036185517849498365076471976493579759, []⟩,
    ⟨196, 8148143905337944345073782753637512644205873574663745002544561797417525199053346824733589503, 1180591620717411303424, 8148143905337944345073782753637512644205873574663745002544561797417525199053346824733589503, 2037035976334486086268445688409378161051468393665936250636140449354381299763336706183397375, []⟩]
  | .DeclareStatement => [
    ⟨21, 8148143905337944345073782753637512644205873574663745002544561797417525199053346824733589503, 2658455991569831745807614120560689152, 8148143905337944345073782753637512644205873574663745002544561797417525199053346824733589503, 2037035976334486086268445688409378161051468393665936250636140449354381299763336706183397375, []⟩,
    ⟨39, 8148143905337944345073782753637512644205873574663745002544561797417525199053346824733589503, 4722366482869645213696, 590295810358705651712, 2037035976334486086268445688409378161051468393665936250636140449354381299763336706183397375, [⟨72, 0, 590295810358705651712⟩]⟩,
    ⟨85, 8148143905337944345073782753637512644205873574663745002544561797417525199053346824733589503, 39614383488587213191554007040, 8148143905337944345073782753637512644205873574663745002544561797417525199053346824733589503, 2037035976334486086268445688409378161051468393665936229036185517849498365076471976627797487, []⟩,
    ⟨103, 8148143905337944345073782753637512644205873574663745002544561797417525199053346824733589503, 302231454903657293676544, 8148143905337944345073782753637512644205873574663745002544561797417525199053346824733589503, 2037035976334486086268445688409378161051468393665936229036185517849498365076471976493579759, []⟩,
    ⟨160, 8148143905337944345073782753637512644205873574663745002544561797417525199053346824733589503, 2658455991569831745807614120560689152, 1024, 2037035976334486086268445688409378161051468393665936250636140449354381299763336706183397375, [⟨121, 0, 1024⟩]⟩,
    ⟨185, 8148143905337944345073782753637512644205873574663745002544561797417525199053346824733589503, 302231454903657293676544, 8148143905337944345073782753637512644205873574663745002544561797417525199053346824733589503, 2037035976334486086268445688409378161051468393665936229036185517849498365076471976493579759, []⟩,
    ⟨195, 8148143905337944345073782753637512644205873574663745002544561797417525199053346824733589503, 680564733841876926926749214863536422912, 8148143905337944345073782753637512644205873574663745002544561797417525199053346824733589503, 2037035976334486086268445688409378161051468393665936250636140449354381299763336706183397375, []⟩]
  | .DeleteStatement => [
    ⟨21, 8148143905337944345073782753637512644205873574663745002544561797417525199053346824733589503, 2658455991569831745807614120560689152, 8148143905337944345073782753637512644205873574663745002544561797417525199053346824733589503, 2037035976334486086268445688409378161051468393665936250636140449354381299763336706183397375, []⟩,
    ⟨75, 8148143905337944345073782753637512644205873574663745002544561797417525199053346824733589503, 1180591620717411303424, 316912650057057350374175801344, 2037035976334486086268445688409378161051468393665936250636140449354381299763336706183397375, [⟨70, 0, 316912650057057350374175801344⟩]⟩,
    ⟨103, 8148143905337944345073782753637512644205873574663745002544561797417525199053346824733589503, 302231454903657293676544, 8148143905337944345073782753637512644205873574663745002544561797417525199053346824733589503, 2037035976334486086268445688409378161051468393665936229036185517849498365076471976493579759, []⟩,
    ⟨160, 8148143905337944345073782753637512644205873574663745002544561797417525199053346824733589503, 2658455991569831745807614120560689152, 1024, 2037035976334486086268445688409378161051468393665936250636140449354381299763336706183397375, [⟨121, 0, 1024⟩]⟩,
    ⟨174, 8148143905337944345073782753637512644205873574663745002544561797417525199053346824733589503, 39614383488587213191554007040, 8148143905337944345073782753637512644205873574663745002544561797417525199053346824733589503, 2037035976334486086268445688409378161051468393665936229036185517849498365076471976493580287, []⟩,
    ⟨185, 8148143905337944345073782753637512644205873574663745002544561797417525199053346824733589503, 302231454903657293676544, 8148143905337944345073782753637512644205873574663745002544561797417525199053346824733589503, 2037035976334486086268445688409378161051468393665936229036185517849498365076471976493579759, []⟩,
    ⟨198, 8148143905337944345073782753637512644205873574663745002544561797417525199053346824733589503, 4722366482869645213696, 8148143905337944345073782753637512644205873574663745002544561797417525199053346824733589503, 2037035976334486086268445688409378161051468393665936250636140449354381299763336706183397375, []⟩]
  | .DifferentialPrivacyClause => [
    ⟨44, 8148143905337944345073782753637512644205873574663745002544561797417525199053346824733589503, 1180591620717411303424, 8148143905337944345073782753637512644205873574663745002544561797417525199053346824733589503, 2037035976334486086268445688409378161051468393665936250636140449354381299763336706183397375, []⟩,
    ⟨122, 8148143905337944345073782753637512644205873574663745002544561797417525199053346824733589503, 37778931862957161709568, 356811923176489970264571492362373784095686656, 2037035976334486086268445688409378161051468393665936250636140449354381299763336706183397375, [⟨75, 0, 356811923176489970264571492362373784095686656⟩]⟩]
  | .DotOperator => [
    ⟨4, 8148143905337944345073782753637512644205873574663745002544561797417525199053346824733589503, 1606938044258990275541962092341162602522202993782792835301375, 8148143905337944345073782753637512644205873574663745002544561797417525199053346824733589503, 2037035976334486086268445688409378161051468393665936229036185517849498365076471976493579759, []⟩,
    ⟨9, 8148143905337944345073782753637512644205873574663745002544561797417525199053346824733589503, 1180591620717411303424, 536870912, 2037035976334486086268445688409378161051468393665936250636140449354381299763336706183397375, [⟨70, 0, 536870912⟩]⟩,
    ⟨27, 8148143905337944345073782753637512644205873574663745002544561797417525199053346824733589503, 2658455991569831745807614120560689152, 64, 2037035976334486086268445688409378161051468393665936250636140449354381299763336706183397375, [⟨121, 0, 64⟩]⟩,
    ⟨72, 8148143905337944345073782753637512644205873574663745002544561797417525199053346824733589503, 144115188075855872, 39614081257132168796771975168, 2037035976334486086268445688409378161051468393665936250636140449354381299763336706183397375, []⟩,
    ⟨104, 8148143905337944345073782753637512644205873574663745002544561797417525199053346824733589503, 1606938044258990275541962092341162602522202993782792835301375, 8148143905337944345073782753637512644205873574663745002544561797417525199053346824733589503, 2037035976334486086268445688409378161051468393665936229036185517849498365076471976493579759, []⟩,
    ⟨107, 8148143905337944345073782753637512644205873574663745002544561797417525199053346824733589503, 2475880078570760549798248448, 10889035741470030830827987437816582766592, 2037035976334486086268445688409378161051468393665936250636140449354381299763336706183397375, []⟩,
    ⟨118, 8148143905337944345073782753637512644205873574663745002544561797417525199053346824733589503, 1180591620717411303424, 8148143905337944345073782753637512644205873574663745002544561797417525199053346824733589503, 2037035976334486086268445688409378161051468393665936250636140449354381299763336706183397375, []⟩,
    ⟨124, 8148143905337944345073782753637512644205873574663745002544561797417525199053346824733589503, 1180591620717411303424, 4722366482870718955520, 2037035976334486086268445688409378161051468393665936250636140449354381299763336706183397375, [⟨70, 0, 4722366482870718955520⟩]⟩,
    ⟨137, 8148143905337944345073782753637512644205873574663745002544561797417525199053346824733589503, 162259276829213363391578010288128, 1461501637330902918203684832716283019655932542976, 2037035976334486086268445688409378161051468393665936250636140449354381299763336706183397375, []⟩,
    ⟨154, 8148143905337944345073782753637512644205873574663745002544561797417525199053346824733589503, 1606938044258990275541962092341162602522202993782792835301375, 8148143905337944345073782753637512644205873574663745002544561797417525199053346824733589503, 2037035976334486086268445688409378161051468393665936250636140449354381299763336706049179119, [⟨120, 1569275433846670190958947355801916604025588861116008628224, 8148143905337944345073782753637512644205873574663745002544561797417525199053346824733589503⟩]⟩,
    ⟨158, 8148143905337944345073782753637512644205873574663745002544561797417525199053346824733589503, 1606938044258990275541962092341162602522202993782792835301375, 8148143905337944345073782753637512644205873574663745002544561797417525199053346824733589503, 2037035976334486086268445688409378161051468393665936250636140449354381299763336706049179119, []⟩,
    ⟨176, 8148143905337944345073782753637512644205873574663745002544561797417525199053346824733589503, 5316911983139663491615228241121378304, 1606938044258990275541962092341162602522202993782792835301376, 2037035976334486086268445688409378161051468393665936250636140449354381299763336706183397375, []⟩,
    ⟨192, 8148143905337944345073782753637512644205873574663745002544561797417525199053346824733589503, 43556142965880123323311949751266331066368, 421249166674228746791672110734681729275580381602196445017243910144, 2037035976334486086268445688409378161051468393665936250636140449354381299763336706183397375, []⟩,
    ⟨203, 8148143905337944345073782753637512644205873574663745002544561797417525199053346824733589503, 89202980794122492566142873090593446023921664, 862718293348820473429344482784628181556388621521298319395315527974912, 2037035976334486086268445688409378161051468393665936250636140449354381299763336706183397375, []⟩]
  | .DropStatement => [
    ⟨15, 8148143905337944345073782753637512644205873574663745002544561797417525199053346824733589503, 1180591620717411303424, 1532495540865888858358347027150309183618809490927779840, 2037035976334486086268445688409378161051468393665936250636140449354381299763336706183397375, [⟨70, 0, 1532495540865888858358347027150309183618809490927779840⟩]⟩,
    ⟨21, 8148143905337944345073782753637512644205873574663745002544561797417525199053346824733589503, 2658455991569831745807614120560689152, 8148143905337944345073782753637512644205873574663745002544561797417525199053346824733589503, 2037035976334486086268445688409378161051468393665936250636140449354381299763336706183397375, []⟩,
    ⟨66, 8148143905337944345073782753637512644205873574663745002544561797417525199053346824733589503, 1180591620717411303424, 618970019642690137449562112, 2037035976334486086268445688409378161051468393665936250636140449354381299763336706183397375, [⟨70, 0, 618970019642690137449562112⟩]⟩,
    ⟨84, 8148143905337944345073782753637512644205873574663745002544561797417525199053346824733589503, 39614383488587213191554007040, 8148143905337944345073782753637512644205873574663745002544561797417525199053346824733589503, 2037035976334486086268445688409378161051468393665936229036185517849498365076471976493579759, []⟩,
    ⟨86, 8148143905337944345073782753637512644205873574663745002544561797417525199053346824733589503, 1180591620717411303424, 8148143905337944345073782753637512644205873574663745002544561797417525199053346824733589503, 2037035976334486086268445688409378161051468393665936250636140449354381299763336706183397375, []⟩,
    ⟨103, 8148143905337944345073782753637512644205873574663745002544561797417525199053346824733589503, 302231454903657293676544, 8148143905337944345073782753637512644205873574663745002544561797417525199053346824733589503, 2037035976334486086268445688409378161051468393665936229036185517849498365076471976493579759, []⟩,
    ⟨109, 8148143905337944345073782753637512644205873574663745002544561797417525199053346824733589503, 1180591620717411303424, 21778071482940061661655974875633165533184, 2037035976334486086268445688409378161051468393665936250636140449354381299763336706183397375, [⟨70, 0, 21778071482940061661655974875633165533184⟩]⟩,
    ⟨120, 8148143905337944345073782753637512644205873574663745002544561797417525199053346824733589503, 4722366482869645213696, 178405961588244985132285746181186892047843328, 2037035976334486086268445688409378161051468393665936250636140449354381299763336706183397375, [⟨72, 0, 178405961588244985132285746181186892047843328⟩]⟩,
    ⟨160, 8148143905337944345073782753637512644205873574663745002544561797417525199053346824733589503, 2658455991569831745807614120560689152, 1024, 2037035976334486086268445688409378161051468393665936250636140449354381299763336706183397375, [⟨121, 0, 1024⟩]⟩,
    ⟨173, 8148143905337944345073782753637512644205873574663745002544561797417525199053346824733589503, 1180591620717411303424, 803469022129495137770981046170581301261101496891396417650688, 2037035976334486086268445688409378161051468393665936250636140449354381299763336706183397375, [⟨70, 0, 803469022129495137770981046170581301261101496891396417650688⟩]⟩,
    ⟨185, 8148143905337944345073782753637512644205873574663745002544561797417525199053346824733589503, 302231454903657293676544, 8148143905337944345073782753637512644205873574663745002544561797417525199053346824733589503, 2037035976334486086268445688409378161051468393665936229036185517849498365076471976493579759, []⟩,
    ⟨196, 8148143905337944345073782753637512644205873574663745002544561797417525199053346824733589503, 3541774862152233910272, 8148143905337944345073782753637512644205873574663745002544561797417525199053346824733589503, 2037035976334486086268445688409378161051468393665936250636140449354381299763336706183397375, [⟨71, 41538374868278621028243970633760768, 3138550867693340381917894711603833208051177722232017256448⟩]⟩]
  | .DropRowAccessPolicyStatement => [
    ⟨21, 8148143905337944345073782753637512644205873574663745002544561797417525199053346824733589503, 2658455991569831745807614120560689152, 8148143905337944345073782753637512644205873574663745002544561797417525199053346824733589503, 2037035976334486086268445688409378161051468393665936250636140449354381299763336706183397375, []⟩,
    ⟨84, 8148143905337944345073782753637512644205873574663745002544561797417525199053346824733589503, 39614383488587213191554007040, 8148143905337944345073782753637512644205873574663745002544561797417525199053346824733589503, 2037035976334486086268445688409378161051468393665936229036185517849498365076471976493579759, []⟩,
    ⟨86, 8148143905337944345073782753637512644205873574663745002544561797417525199053346824733589503, 1180591620717411303424, 8148143905337944345073782753637512644205873574663745002544561797417525199053346824733589503, 2037035976334486086268445688409378161051468393665936250636140449354381299763336706183397375, []⟩,
    ⟨103, 8148143905337944345073782753637512644205873574663745002544561797417525199053346824733589503, 302231454903657293676544, 8148143905337944345073782753637512644205873574663745002544561797417525199053346824733589503, 2037035976334486086268445688409378161051468393665936229036185517849498365076471976493579759, []⟩,
    ⟨120, 8148143905337944345073782753637512644205873574663745002544561797417525199053346824733589503, 4722366482869645213696, 8148143905337944345073782753637512644205873574663745002544561797417525199053346824733589503, 2037035976334486086268445688409378161051468393665936250636140449354381299763336706183397375, []⟩,
    ⟨160, 8148143905337944345073782753637512644205873574663745002544561797417525199053346824733589503, 2658455991569831745807614120560689152, 1024, 2037035976334486086268445688409378161051468393665936250636140449354381299763336706183397375, [⟨121, 0, 1024⟩]⟩,
    ⟨185, 8148143905337944345073782753637512644205873574663745002544561797417525199053346824733589503, 302231454903657293676544, 8148143905337944345073782753637512644205873574663745002544561797417525199053346824733589503, 2037035976334486086268445688409378161051468393665936229036185517849498365076471976493579759, []⟩,
    ⟨196, 8148143905337944345073782753637512644205873574663745002544561797417525199053346824733589503, 1180591620717411303424, 8148143905337944345073782753637512644205873574663745002544561797417525199053346824733589503, 2037035976334486086268445688409378161051468393665936250636140449354381299763336706183397375, []⟩]
  | .ElseIfClause => [
    ⟨28, 8148143905337944345073782753637512644205873574663745002544561797417525199053346824733589503, 1606938044258990275541962092341162602522202993782792835301375, 8148143905337944345073782753637512644205873574663745002544561797417525199053346824733589503, 2037035976334486086268445688409378161051468393665936250636140449354381299763336706049179119, []⟩,
    ⟨179, 8148143905337944345073782753637512644205873574663745002544561797417525199053346824733589503, 151115727451828646838272, 8148143905337944345073782753637512644205873574663745002544561797417525199053346824733589503, 2037035976334486086268445688409378161051468393665936250636140449354381299763336706183397375, []⟩]
  | .EmptyStruct => [
    ⟨4, 8148143905337944345073782753637512644205873574663745002544561797417525199053346824733589503, 1606938044258990275541962092341162602522202993782792835301375, 8148143905337944345073782753637512644205873574663745002544561797417525199053346824733589503, 2037035976334486086268445688409378161051468393665936229036185517849498365076471976493579759, []⟩,
    ⟨9, 8148143905337944345073782753637512644205873574663745002544561797417525199053346824733589503, 1180591620717411303424, 536870912, 2037035976334486086268445688409378161051468393665936250636140449354381299763336706183397375, [⟨70, 0, 536870912⟩]⟩,
    ⟨27, 8148143905337944345073782753637512644205873574663745002544561797417525199053346824733589503, 2658455991569831745807614120560689152, 64, 2037035976334486086268445688409378161051468393665936250636140449354381299763336706183397375, [⟨121, 0, 64⟩]⟩,
    ⟨118, 8148143905337944345073782753637512644205873574663745002544561797417525199053346824733589503, 1180591620717411303424, 8148143905337944345073782753637512644205873574663745002544561797417525199053346824733589503, 2037035976334486086268445688409378161051468393665936250636140449354381299763336706183397375, []⟩,
    ⟨124, 8148143905337944345073782753637512644205873574663745002544561797417525199053346824733589503, 1180591620717411303424, 4722366482870718955520, 2037035976334486086268445688409378161051468393665936250636140449354381299763336706183397375, [⟨70, 0, 4722366482870718955520⟩]⟩,
    ⟨159, 8148143905337944345073782753637512644205873574663745002544561797417525199053346824733589503, 2658455991569831745807614120560689152, 8, 2037035976334486086268445688409378161051468393665936250636140449354381299763336706183397375, [⟨121, 0, 8⟩]⟩]
  | .ExecuteStatement => [
    ⟨21, 8148143905337944345073782753637512644205873574663745002544561797417525199053346824733589503, 2658455991569831745807614120560689152, 8148143905337944345073782753637512644205873574663745002544561797417525199053346824733589503, 2037035976334486086268445688409378161051468393665936250636140449354381299763336706183397375, []⟩,
    ⟨89, 8148143905337944345073782753637512644205873574663745002544561797417525199053346824733589503, 1180591620717411303424, 8148143905337944345073782753637512644205873574663745002544561797417525199053346824733589503, 2037035976334486086268445688409378161051468393665936250636140449354381299763336706183397375, []⟩,
    ⟨94, 8148143905337944345073782753637512644205873574663745002544561797417525199053346824733589503, 9444732965739290427392, 166153499473114484112975882535043072, 2037035976334486086268445688409378161051468393665936250636140449354381299763336706183397375, [⟨73, 0, 166153499473114484112975882535043072⟩]⟩,
    ⟨103, 8148143905337944345073782753637512644205873574663745002544561797417525199053346824733589503, 302231454903657293676544, 8148143905337944345073782753637512644205873574663745002544561797417525199053346824733589503, 2037035976334486086268445688409378161051468393665936229036185517849498365076471976493579759, []⟩,
    ⟨160, 8148143905337944345073782753637512644205873574663745002544561797417525199053346824733589503, 2658455991569831745807614120560689152, 1024, 2037035976334486086268445688409378161051468393665936250636140449354381299763336706183397375, [⟨121, 0, 1024⟩]⟩,
    ⟨165, 8148143905337944345073782753637512644205873574663745002544561797417525199053346824733589503, 1606938044258990275541962092341162602522202993782792835301375, 8148143905337944345073782753637512644205873574663745002544561797417525199053346824733589503, 2037035976334486086268445688409378161051468393665936250636140449354381299763336706049179119, []⟩,
    ⟨185, 8148143905337944345073782753637512644205873574663745002544561797417525199053346824733589503, 302231454903657293676544, 8148143905337944345073782753637512644205873574663745002544561797417525199053346824733589503, 2037035976334486086268445688409378161051468393665936229036185517849498365076471976493579759, []⟩,
    ⟨194, 8148143905337944345073782753637512644205873574663745002544561797417525199053346824733589503, 9444732965739290427392, 3369993333393829974333376885877453834204643052817571560137951281152, 2037035976334486086268445688409378161051468393665936250636140449354381299763336706183397375, [⟨73, 0, 3369993333393829974333376885877453834204643052817571560137951281152⟩]⟩]
  | .ExportDataStatement => [
    ⟨9, 8148143905337944345073782753637512644205873574663745002544561797417525199053346824733589503, 75557863725914323419136, 8148143905337944345073782753637512644205873574663745002544561797417525199053346824733589503, 2037035976334486086268445688409378161051468393665936250636140449354381299763336706183397375, []⟩,
    ⟨21, 8148143905337944345073782753637512644205873574663745002544561797417525199053346824733589503, 2658455991569831745807614120560689152, 8148143905337944345073782753637512644205873574663745002544561797417525199053346824733589503, 2037035976334486086268445688409378161051468393665936250636140449354381299763336706183397375, []⟩,
    ⟨35, 8148143905337944345073782753637512644205873574663745002544561797417525199053346824733589503, 1180591620717411303424, 8148143905337944345073782753637512644205873574663745002544561797417525199053346824733589503, 2037035976334486086268445688409378161051468393665936250636140449354381299763336706183397375, []⟩,
    ⟨103, 8148143905337944345073782753637512644205873574663745002544561797417525199053346824733589503, 302231454903657293676544, 8148143905337944345073782753637512644205873574663745002544561797417525199053346824733589503, 2037035976334486086268445688409378161051468393665936229036185517849498365076471976493579759, []⟩,
    ⟨122, 8148143905337944345073782753637512644205873574663745002544561797417525199053346824733589503, 37778931862957161709568, 8148143905337944345073782753637512644205873574663745002544561797417525199053346824733589503, 2037035976334486086268445688409378161051468393665936250636140449354381299763336706183397375, []⟩,
    ⟨160, 8148143905337944345073782753637512644205873574663745002544561797417525199053346824733589503, 2658455991569831745807614120560689152, 1024, 2037035976334486086268445688409378161051468393665936250636140449354381299763336706183397375, [⟨121, 0, 1024⟩]⟩,
    ⟨185, 8148143905337944345073782753637512644205873574663745002544561797417525199053346824733589503, 302231454903657293676544, 8148143905337944345073782753637512644205873574663745002544561797417525199053346824733589503, 2037035976334486086268445688409378161051468393665936229036185517849498365076471976493579759, []⟩,
    ⟨202, 8148143905337944345073782753637512644205873574663745002544561797417525199053346824733589503, 2361183241434822606848, 862718293348820473429344482784628181556388621521298319395315527974912, 2037035976334486086268445688409378161051468393665936250636140449354381299763336706183397375, [⟨71, 41538374868278621028243970633760768, 862718293348820473429344482784628181556388621521298319395315527974912⟩]⟩]
  | .ExportModelStatement => [
    ⟨21, 8148143905337944345073782753637512644205873574663745002544561797417525199053346824733589503, 2658455991569831745807614120560689152, 8148143905337944345073782753637512644205873574663745002544561797417525199053346824733589503, 2037035976334486086268445688409378161051468393665936250636140449354381299763336706183397375, []⟩,
    ⟨84, 8148143905337944345073782753637512644205873574663745002544561797417525199053346824733589503, 39614383488587213191554007040, 8148143905337944345073782753637512644205873574663745002544561797417525199053346824733589503, 2037035976334486086268445688409378161051468393665936229036185517849498365076471976493579759, []⟩,
    ⟨103, 8148143905337944345073782753637512644205873574663745002544561797417525199053346824733589503, 302231454903657293676544, 8148143905337944345073782753637512644205873574663745002544561797417525199053346824733589503, 2037035976334486086268445688409378161051468393665936229036185517849498365076471976493579759, []⟩,
    ⟨122, 8148143905337944345073782753637512644205873574663745002544561797417525199053346824733589503, 37778931862957161709568, 356811923176489970264571492362373784095686656, 2037035976334486086268445688409378161051468393665936250636140449354381299763336706183397375, [⟨75, 0, 356811923176489970264571492362373784095686656⟩]⟩,
    ⟨160, 8148143905337944345073782753637512644205873574663745002544561797417525199053346824733589503, 2658455991569831745807614120560689152, 1024, 2037035976334486086268445688409378161051468393665936250636140449354381299763336706183397375, [⟨121, 0, 1024⟩]⟩,
    ⟨185, 8148143905337944345073782753637512644205873574663745002544561797417525199053346824733589503, 302231454903657293676544, 8148143905337944345073782753637512644205873574663745002544561797417525199053346824733589503, 2037035976334486086268445688409378161051468393665936229036185517849498365076471976493579759, []⟩,
    ⟨196, 8148143905337944345073782753637512644205873574663745002544561797417525199053346824733589503, 1180591620717411303424, 8148143905337944345073782753637512644205873574663745002544561797417525199053346824733589503, 2037035976334486086268445688409378161051468393665936250636140449354381299763336706183397375, []⟩]
  | .ExtractArgument => [
    ⟨11, 8148143905337944345073782753637512644205873574663745002544561797417525199053346824733589503, 1180591620717411303424, 8148143905337944345073782753637512644205873574663745002544561797417525199053346824733589503, 2037035976334486086268445688409378161051468393665936250636140449354381299763336706183397375, []⟩,
    ⟨67, 8148143905337944345073782753637512644205873574663745002544561797417525199053346824733589503, 1606938044258990275541962092341162602522202993782792835301375, 8148143905337944345073782753637512644205873574663745002544561797417525199053346824733589503, 2037035976334486086268445688409378161051468393665936250636140449354381299763336706049179119, []⟩,
    ⟨68, 8148143905337944345073782753637512644205873574663745002544561797417525199053346824733589503, 1606938044258990275541962092341162602522202993782792835301375, 8148143905337944345073782753637512644205873574663745002544561797417525199053346824733589503, 2037035976334486086268445688409378161051468393665936250636140449354381299763336706049179119, []⟩,
    ⟨180, 8148143905337944345073782753637512644205873574663745002544561797417525199053346824733589503, 1606938044258990275541962092341162602522202993782792835301375, 8148143905337944345073782753637512644205873574663745002544561797417525199053346824733589503, 2037035976334486086268445688409378161051468393665936250636140449354381299763336706049179119, []⟩]
  | .ForSystemTimeAsOfClause => [
    ⟨64, 8148143905337944345073782753637512644205873574663745002544561797417525199053346824733589503, 1606938044258990275541962092341162602522202993782792835301375, 8148143905337944345073782753637512644205873574663745002544561797417525199053346824733589503, 2037035976334486086268445688409378161051468393665936250636140449354381299763336706049179119, []⟩,
    ⟨172, 8148143905337944345073782753637512644205873574663745002544561797417525199053346824733589503, 1180591620717411303424, 8148143905337944345073782753637512644205873574663745002544561797417525199053346824733589503, 2037035976334486086268445688409378161051468393665936250636140449354381299763336706183397375, []⟩]
  | .ForStatement => [
    ⟨21, 8148143905337944345073782753637512644205873574663745002544561797417525199053346824733589503, 2658455991569831745807614120560689152, 8148143905337944345073782753637512644205873574663745002544561797417525199053346824733589503, 2037035976334486086268445688409378161051468393665936250636140449354381299763336706183397375, []⟩,
    ⟨47, 8148143905337944345073782753637512644205873574663745002544561797417525199053346824733589503, 151115727451828646838272, 8148143905337944345073782753637512644205873574663745002544561797417525199053346824733589503, 2037035976334486086268445688409378161051468393665936250636140449354381299763336706183397375, []⟩,
    ⟨56, 8148143905337944345073782753637512644205873574663745002544561797417525199053346824733589503, 1180591620717411303424, 8148143905337944345073782753637512644205873574663745002544561797417525199053346824733589503, 2037035976334486086268445688409378161051468393665936250636140449354381299763336706183397375, []⟩,
    ⟨84, 8148143905337944345073782753637512644205873574663745002544561797417525199053346824733589503, 302231454903657293676544, 8148143905337944345073782753637512644205873574663745002544561797417525199053346824733589503, 2037035976334486086268445688409378161051468393665936229036185517849498365076471976493579759, []⟩,
    ⟨90, 8148143905337944345073782753637512644205873574663745002544561797417525199053346824733589503, 37778931862957161709568, 8148143905337944345073782753637512644205873574663745002544561797417525199053346824733589503, 2037035976334486086268445688409378161051468393665936250636140449354381299763336706183397375, []⟩,
    ⟨103, 8148143905337944345073782753637512644205873574663745002544561797417525199053346824733589503, 302231454903657293676544, 8148143905337944345073782753637512644205873574663745002544561797417525199053346824733589503, 2037035976334486086268445688409378161051468393665936229036185517849498365076471976493579759, []⟩,
    ⟨160, 8148143905337944345073782753637512644205873574663745002544561797417525199053346824733589503, 2658455991569831745807614120560689152, 1024, 2037035976334486086268445688409378161051468393665936250636140449354381299763336706183397375, [⟨121, 0, 1024⟩]⟩,
    ⟨185, 8148143905337944345073782753637512644205873574663745002544561797417525199053346824733589503, 302231454903657293676544, 8148143905337944345073782753637512644205873574663745002544561797417525199053346824733589503, 2037035976334486086268445688409378161051468393665936229036185517849498365076471976493579759, []⟩]
  | .FromStatement => [
    ⟨4, 8148143905337944345073782753637512644205873574663745002544561797417525199053346824733589503, 1606938044258990275541962092341162602522202993782792835301375, 8148143905337944345073782753637512644205873574663745002544561797417525199053346824733589503, 2037035976334486086268445688409378161051468393665936229036185517849498365076471976493579759, []⟩,
    ⟨9, 8148143905337944345073782753637512644205873574663745002544561797417525199053346824733589503, 1180591620717411303424, 536870912, 2037035976334486086268445688409378161051468393665936250636140449354381299763336706183397375, [⟨70, 0, 536870912⟩]⟩,
    ⟨21, 8148143905337944345073782753637512644205873574663745002544561797417525199053346824733589503, 2658455991569831745807614120560689152, 8148143905337944345073782753637512644205873574663745002544561797417525199053346824733589503, 2037035976334486086268445688409378161051468393665936250636140449354381299763336706183397375, []⟩,
    ⟨27, 8148143905337944345073782753637512644205873574663745002544561797417525199053346824733589503, 2658455991569831745807614120560689152, 64, 2037035976334486086268445688409378161051468393665936250636140449354381299763336706183397375, [⟨121, 0, 64⟩]⟩,
    ⟨64, 8148143905337944345073782753637512644205873574663745002544561797417525199053346824733589503, 1606938044258990275541962092341162602522202993782792835301375, 8148143905337944345073782753637512644205873574663745002544561797417525199053346824733589503, 2037035976334486086268445688409378161051468393665936250636140449354381299763336706049179647, []⟩,
    ⟨103, 8148143905337944345073782753637512644205873574663745002544561797417525199053346824733589503, 302231454903657293676544, 8148143905337944345073782753637512644205873574663745002544561797417525199053346824733589503, 2037035976334486086268445688409378161051468393665936229036185517849498365076471976493579759, []⟩,
    ⟨118, 8148143905337944345073782753637512644205873574663745002544561797417525199053346824733589503, 1180591620717411303424, 8148143905337944345073782753637512644205873574663745002544561797417525199053346824733589503, 2037035976334486086268445688409378161051468393665936250636140449354381299763336706183397375, []⟩,
    ⟨124, 8148143905337944345073782753637512644205873574663745002544561797417525199053346824733589503, 1180591620717411303424, 4722366482870718955520, 2037035976334486086268445688409378161051468393665936250636140449354381299763336706183397375, [⟨70, 0, 4722366482870718955520⟩]⟩,
    ⟨158, 8148143905337944345073782753637512644205873574663745002544561797417525199053346824733589503, 1606938044258990275541962092341162602522202993782792835301375, 8148143905337944345073782753637512644205873574663745002544561797417525199053346824733589503, 2037035976334486086268445688409378161051468393665936250636140449354381299763336706049179119, [⟨59, 3213876088517980551083924184682325205044405987565585670602752, 8148143905337944345073782753637512644205873574663745002544561797417525199053346824733589503⟩]⟩,
    ⟨160, 8148143905337944345073782753637512644205873574663745002544561797417525199053346824733589503, 2658455991569831745807614120560689152, 1024, 2037035976334486086268445688409378161051468393665936250636140449354381299763336706183397375, [⟨121, 0, 1024⟩]⟩,
    ⟨185, 8148143905337944345073782753637512644205873574663745002544561797417525199053346824733589503, 302231454903657293676544, 8148143905337944345073782753637512644205873574663745002544561797417525199053346824733589503, 2037035976334486086268445688409378161051468393665936229036185517849498365076471976493579759, []⟩,
    ⟨201, 8148143905337944345073782753637512644205873574663745002544561797417525199053346824733589503, 44601490397061246283071436545296723011960832, 862718293348820473429344482784628181556388621521298319395315527974912, 2037035976334486086268445688409378161051468393665936250636140449354381299763336706183397375, []⟩]
  | .FunctionChain => [
    ⟨4, 8148143905337944345073782753637512644205873574663745002544561797417525199053346824733589503, 1606938044258990275541962092341162602522202993782792835301375, 8148143905337944345073782753637512644205873574663745002544561797417525199053346824733589503, 2037035976334486086268445688409378161051468393665936229036185517849498365076471976493579759, []⟩,
    ⟨9, 8148143905337944345073782753637512644205873574663745002544561797417525199053346824733589503, 1180591620717411303424, 536870912, 2037035976334486086268445688409378161051468393665936250636140449354381299763336706183397375, [⟨70, 0, 536870912⟩]⟩,
    ⟨27, 8148143905337944345073782753637512644205873574663745002544561797417525199053346824733589503, 2658455991569831745807614120560689152, 64, 2037035976334486086268445688409378161051468393665936250636140449354381299763336706183397375, [⟨121, 0, 64⟩]⟩,
    ⟨72, 8148143905337944345073782753637512644205873574663745002544561797417525199053346824733589503, 144115188075855872, 39614081257132168796771975168, 2037035976334486086268445688409378161051468393665936250636140449354381299763336706183397375, []⟩,
    ⟨104, 8148143905337944345073782753637512644205873574663745002544561797417525199053346824733589503, 1606938044258990275541962092341162602522202993782792835301375, 8148143905337944345073782753637512644205873574663745002544561797417525199053346824733589503, 2037035976334486086268445688409378161051468393665936229036185517849498365076471976493579759, []⟩,
    ⟨107, 8148143905337944345073782753637512644205873574663745002544561797417525199053346824733589503, 2475880078570760549798248448, 10889035741470030830827987437816582766592, 2037035976334486086268445688409378161051468393665936250636140449354381299763336706183397375, []⟩,
    ⟨118, 8148143905337944345073782753637512644205873574663745002544561797417525199053346824733589503, 1180591620717411303424, 8148143905337944345073782753637512644205873574663745002544561797417525199053346824733589503, 2037035976334486086268445688409378161051468393665936250636140449354381299763336706183397375, []⟩,
    ⟨124, 8148143905337944345073782753637512644205873574663745002544561797417525199053346824733589503, 1180591620717411303424, 4722366482870718955520, 2037035976334486086268445688409378161051468393665936250636140449354381299763336706183397375, [⟨70, 0, 4722366482870718955520⟩]⟩,
    ⟨137, 8148143905337944345073782753637512644205873574663745002544561797417525199053346824733589503, 162259276829213363391578010288128, 1461501637330902918203684832716283019655932542976, 2037035976334486086268445688409378161051468393665936250636140449354381299763336706183397375, []⟩,
    ⟨154, 8148143905337944345073782753637512644205873574663745002544561797417525199053346824733589503, 1606938044258990275541962092341162602522202993782792835301375, 8148143905337944345073782753637512644205873574663745002544561797417525199053346824733589503, 2037035976334486086268445688409378161051468393665936250636140449354381299763336706049179119, []⟩,
    ⟨158, 8148143905337944345073782753637512644205873574663745002544561797417525199053346824733589503, 1606938044258990275541962092341162602522202993782792835301375, 8148143905337944345073782753637512644205873574663745002544561797417525199053346824733589503, 2037035976334486086268445688409378161051468393665936250636140449354381299763336706049179119, []⟩,
    ⟨176, 8148143905337944345073782753637512644205873574663745002544561797417525199053346824733589503, 5316911983139663491615228241121378304, 1606938044258990275541962092341162602522202993782792835301376, 2037035976334486086268445688409378161051468393665936250636140449354381299763336706183397375, []⟩,
    ⟨192, 8148143905337944345073782753637512644205873574663745002544561797417525199053346824733589503, 43556142965880123323311949751266331066368, 421249166674228746791672110734681729275580381602196445017243910144, 2037035976334486086268445688409378161051468393665936250636140449354381299763336706183397375, []⟩,
    ⟨203, 8148143905337944345073782753637512644205873574663745002544561797417525199053346824733589503, 89202980794122492566142873090593446023921664, 862718293348820473429344482784628181556388621521298319395315527974912, 2037035976334486086268445688409378161051468393665936250636140449354381299763336706183397375, []⟩]
  | .GrantStatement => [
    ⟨21, 8148143905337944345073782753637512644205873574663745002544561797417525199053346824733589503, 2658455991569831745807614120560689152, 8148143905337944345073782753637512644205873574663745002544561797417525199053346824733589503, 2037035976334486086268445688409378161051468393665936250636140449354381299763336706183397375, []⟩,
    ⟨84, 8148143905337944345073782753637512644205873574663745002544561797417525199053346824733589503, 39614383488587213191554007040, 8148143905337944345073782753637512644205873574663745002544561797417525199053346824733589503, 2037035976334486086268445688409378161051468393665936229036185517849498365076471976493579759, []⟩,
    ⟨103, 8148143905337944345073782753637512644205873574663745002544561797417525199053346824733589503, 302231454903657293676544, 8148143905337944345073782753637512644205873574663745002544561797417525199053346824733589503, 2037035976334486086268445688409378161051468393665936229036185517849498365076471976493579759, []⟩,
    ⟨120, 8148143905337944345073782753637512644205873574663745002544561797417525199053346824733589503, 1180591620717411303424, 8148143905337944345073782753637512644205873574663745002544561797417525199053346824733589503, 2037035976334486086268445688409378161051468393665936250636140449354381299763336706183397375, []⟩,
    ⟨151, 8148143905337944345073782753637512644205873574663745002544561797417525199053346824733589503, 1180591620717411303424, 8148143905337944345073782753637512644205873574663745002544561797417525199053346824733589503, 2037035976334486086268445688409378161051468393665936250636140449354381299763336706183397375, []⟩,
    ⟨160, 8148143905337944345073782753637512644205873574663745002544561797417525199053346824733589503, 2658455991569831745807614120560689152, 1024, 2037035976334486086268445688409378161051468393665936250636140449354381299763336706183397375, [⟨121, 0, 1024⟩]⟩,
    ⟨181, 8148143905337944345073782753637512644205873574663745002544561797417525199053346824733589503, 9444732965739290427392, 8148143905337944345073782753637512644205873574663745002544561797417525199053346824733589503, 2037035976334486086268445688409378161051468393665936250636140449354381299763336706183397375, []⟩,
    ⟨185, 8148143905337944345073782753637512644205873574663745002544561797417525199053346824733589503, 302231454903657293676544, 8148143905337944345073782753637512644205873574663745002544561797417525199053346824733589503, 2037035976334486086268445688409378161051468393665936229036185517849498365076471976493579759, []⟩]
  | .GroupByExprs => [
    ⟨13, 8148143905337944345073782753637512644205873574663745002544561797417525199053346824733589503, 1180591620717411303424, 8148143905337944345073782753637512644205873574663745002544561797417525199053346824733589503, 2037035976334486086268445688409378161051468393665936250636140449354381299763336706183397375, []⟩,
    ⟨83, 8148143905337944345073782753637512644205873574663745002544561797417525199053346824733589503, 1180591620717411303424, 8148143905337944345073782753637512644205873574663745002544561797417525199053346824733589503, 2037035976334486086268445688409378161051468393665936250636140449354381299763336706183397375, []⟩]
  | .GroupedIdentWithOptions => [
    ⟨85, 8148143905337944345073782753637512644205873574663745002544561797417525199053346824733589503, 604462909807314587353088, 8148143905337944345073782753637512644205873574663745002544561797417525199053346824733589503, 2037035976334486086268445688409378161051468393665936250636140449354381299763336706183397375, []⟩,
    ⟨159, 8148143905337944345073782753637512644205873574663745002544561797417525199053346824733589503, 2658455991569831745807614120560689152, 8, 2037035976334486086268445688409378161051468393665936250636140449354381299763336706183397375, [⟨121, 0, 8⟩]⟩]
  | .GroupedExpr => [
    ⟨4, 8148143905337944345073782753637512644205873574663745002544561797417525199053346824733589503, 1606938044258990275541962092341162602522202993782792835301375, 8148143905337944345073782753637512644205873574663745002544561797417525199053346824733589503, 2037035976334486086268445688409378161051468393665936229036185517849498365076471976493579759, []⟩,
    ⟨9, 8148143905337944345073782753637512644205873574663745002544561797417525199053346824733589503, 1180591620717411303424, 536870912, 2037035976334486086268445688409378161051468393665936250636140449354381299763336706183397375, [⟨70, 0, 536870912⟩]⟩,
    ⟨27, 8148143905337944345073782753637512644205873574663745002544561797417525199053346824733589503, 2658455991569831745807614120560689152, 64, 2037035976334486086268445688409378161051468393665936250636140449354381299763336706183397375, [⟨121, 0, 64⟩]⟩,
    ⟨64, 8148143905337944345073782753637512644205873574663745002544561797417525199053346824733589499, 1606938044258990275541962092341162602522202993782792835301375, 8148143905337944345073782753637512644205873574663745002544561797417525199053346824733589503, 2037035976334486086268445688409378161051468393665936250636140449354381299763336706049179119, []⟩,
    ⟨72, 8148143905337944345073782753637512644205873574663745002544561797417525199053346824733589503, 144115188075855872, 39614081257132168796771975168, 2037035976334486086268445688409378161051468393665936250636140449354381299763336706183397375, []⟩,
    ⟨107, 8148143905337944345073782753637512644205873574663745002544561797417525199053346824733589503, 2475880078570760549798248448, 10889035741470030830827987437816582766592, 2037035976334486086268445688409378161051468393665936250636140449354381299763336706183397375, []⟩,
    ⟨118, 8148143905337944345073782753637512644205873574663745002544561797417525199053346824733589503, 1180591620717411303424, 8148143905337944345073782753637512644205873574663745002544561797417525199053346824733589503, 2037035976334486086268445688409378161051468393665936250636140449354381299763336706183397375, []⟩,
    ⟨124, 8148143905337944345073782753637512644205873574663745002544561797417525199053346824733589503, 1180591620717411303424, 4722366482870718955520, 2037035976334486086268445688409378161051468393665936250636140449354381299763336706183397375, [⟨70, 0, 4722366482870718955520⟩]⟩,
    ⟨137, 8148143905337944345073782753637512644205873574663745002544561797417525199053346824733589503, 162259276829213363391578010288128, 1461501637330902918203684832716283019655932542976, 2037035976334486086268445688409378161051468393665936250636140449354381299763336706183397375, []⟩,
    ⟨159, 8148143905337944345073782753637512644205873574663745002544561797417525199053346824733589503, 2658455991569831745807614120560689152, 8148143905337944345073782753637512644205873574663745002544561797417525199053346824733589503, 2037035976334486086268445688409378161051468393665936250636140449354381299763336706183397375, []⟩,
    ⟨176, 8148143905337944345073782753637512644205873574663745002544561797417525199053346824733589503, 5316911983139663491615228241121378304, 1606938044258990275541962092341162602522202993782792835301376, 2037035976334486086268445688409378161051468393665936250636140449354381299763336706183397375, []⟩,
    ⟨192, 8148143905337944345073782753637512644205873574663745002544561797417525199053346824733589503, 43556142965880123323311949751266331066368, 421249166674228746791672110734681729275580381602196445017243910144, 2037035976334486086268445688409378161051468393665936250636140449354381299763336706183397375, []⟩,
    ⟨203, 8148143905337944345073782753637512644205873574663745002544561797417525199053346824733589503, 89202980794122492566142873090593446023921664, 862718293348820473429344482784628181556388621521298319395315527974912, 2037035976334486086268445688409378161051468393665936250636140449354381299763336706183397375, []⟩]
  | .GroupedExprs => [
    ⟨9, 8148143905337944345073782753637512644205873574663745002544561797417525199053346824733589503, 1180591620717411303424, 536870912, 2037035976334486086268445688409378161051468393665936250636140449354381299763336706183397375, [⟨70, 0, 536870912⟩]⟩,
    ⟨27, 8148143905337944345073782753637512644205873574663745002544561797417525199053346824733589503, 2658455991569831745807614120560689152, 64, 2037035976334486086268445688409378161051468393665936250636140449354381299763336706183397375, [⟨121, 0, 64⟩]⟩,
    ⟨158, 8148143905337944345073782753637512644205873574663745002544561797417525199053346824733589503, 1606938044258990275541962092341162602522202993782792835301375, 8148143905337944345073782753637512644205873574663745002544561797417525199053346824733589503, 2037035976334486086268445688409378161051468393665936250636140449354381299763336706049179119, []⟩,
    ⟨159, 8148143905337944345073782753637512644205873574663745002544561797417525199053346824733589503, 2658455991569831745807614120560689152, 8148143905337944345073782753637512644205873574663745002544561797417525199053346824733589503, 2037035976334486086268445688409378161051468393665936250636140449354381299763336706183397375, []⟩]
  | .GroupedPattern => [
    ⟨135, 8148143905337944345073782753637512644205873574663745002544561797417525199053346824733589503, 5387515051043761932655826829312, 8148143905337944345073782753637512644205873574663745002544561797417525199053346824733589503, 2037035976334486086268445688409378161051468393665936250636140449354381299763336706183397375, []⟩,
    ⟨159, 8148143905337944345073782753637512644205873574663745002544561797417525199053346824733589503, 2658455991569831745807614120560689152, 8, 2037035976334486086268445688409378161051468393665936250636140449354381299763336706183397375, [⟨121, 0, 8⟩]⟩,
    ⟨170, 8148143905337944345073782753637512644205873574663745002544561797417525199053346824733589503, 2658476273979435397478038067811975168, 27606985387162255149739023449108101809804435888681546220650096896245808, 2037035976334486086268445688409378161051468393665936250636140449354381299763336706183397375, [⟨121, 0, 1048624⟩]⟩]
  | .GroupedStatement => [
    ⟨4, 8148143905337944345073782753637512644205873574663745002544561797417525199053346824733589503, 1606938044258990275541962092341162602522202993782792835301375, 8148143905337944345073782753637512644205873574663745002544561797417525199053346824733589503, 2037035976334486086268445688409378161051468393665936229036185517849498365076471976493579759, []⟩,
    ⟨9, 8148143905337944345073782753637512644205873574663745002544561797417525199053346824733589503, 1180591620717411303424, 536870912, 2037035976334486086268445688409378161051468393665936250636140449354381299763336706183397375, [⟨70, 0, 536870912⟩]⟩,
    ⟨21, 8148143905337944345073782753637512644205873574663745002544561797417525199053346824733589503, 2658455991569831745807614120560689152, 8148143905337944345073782753637512644205873574663745002544561797417525199053346824733589503, 2037035976334486086268445688409378161051468393665936250636140449354381299763336706183397375, []⟩,
    ⟨27, 8148143905337944345073782753637512644205873574663745002544561797417525199053346824733589503, 2658455991569831745807614120560689152, 64, 2037035976334486086268445688409378161051468393665936250636140449354381299763336706183397375, [⟨121, 0, 64⟩]⟩,
    ⟨72, 8148143905337944345073782753637512644205873574663745002544561797417525199053346824733589503, 144115188075855872, 39614081257132168796771975168, 2037035976334486086268445688409378161051468393665936250636140449354381299763336706183397375, []⟩,
    ⟨103, 8148143905337944345073782753637512644205873574663745002544561797417525199053346824733589503, 302231454903657293676544, 8148143905337944345073782753637512644205873574663745002544561797417525199053346824733589503, 2037035976334486086268445688409378161051468393665936229036185517849498365076471976493579759, []⟩,
    ⟨106, 8148143905337944345073782753637512644205873574663745002544561797417525199053346824733589503, 154742504910672534362390528, 680564733841876926926749214863536422912, 2037035976334486086268445688409378161051468393665936250636140449354381299763336706183397375, []⟩,
    ⟨107, 8148143905337944345073782753637512644205873574663745002544561797417525199053346824733589503, 2475880078570760549798248448, 10889035741470030830827987437816582766592, 2037035976334486086268445688409378161051468393665936250636140449354381299763336706183397375, []⟩,
    ⟨118, 8148143905337944345073782753637512644205873574663745002544561797417525199053346824733589503, 1180591620717411303424, 8148143905337944345073782753637512644205873574663745002544561797417525199053346824733589503, 2037035976334486086268445688409378161051468393665936250636140449354381299763336706183397375, []⟩,
    ⟨124, 8148143905337944345073782753637512644205873574663745002544561797417525199053346824733589503, 1180591620717411303424, 4722366482870718955520, 2037035976334486086268445688409378161051468393665936250636140449354381299763336706183397375, [⟨70, 0, 4722366482870718955520⟩]⟩,
    ⟨125, 8148143905337944345073782753637512644205873574663745002544561797417525199053346824733589503, 1427247692705959881058285969449495136382746624, 1427247692705959881058285969449495136382746624, 2037035976334486086268445688409378161051468393665936250636140449354381299763336706183397375, [⟨150, 0, 1427247692705959881058285969449495136382746624⟩]⟩,
    ⟨137, 8148143905337944345073782753637512644205873574663745002544561797417525199053346824733589503, 162259276829213363391578010288128, 1461501637330902918203684832716283019655932542976, 2037035976334486086268445688409378161051468393665936250636140449354381299763336706183397375, []⟩,
    ⟨158, 8148143905337944345073782753637512644205873574663745002544561797417525199053346824733589503, 1606938044258990275541962092341162602522202993782792835301375, 8148143905337944345073782753637512644205873574663745002544561797417525199053346824733589503, 2037035976334486086268445688409378161051468393665936250636140449354381299763336706049179119, []⟩,
    ⟨159, 8148143905337944345073782543012929307091500178827689635203697159627334397955124316111634431, 2658455991569831745807614120560689152, 8148143905337944345073782753637512644205873574663745002544561797417525199053346824733589503, 2037035976334486086268445688409378161051468393665936250636140449354381299763336706183397375, []⟩,
    ⟨159, 210624583337114373395836055367340864637790190801098222508621955072, 2658455991569831745807614120560689152, 8, 2037035976334486086268445688409378161051468393665936250636140449354381299763336706183397375, [⟨121, 0, 8⟩]⟩,
    ⟨160, 8148143905337944345073782753637512644205873574663745002544561797417525199053346824733589503, 2658455991569831745807614120560689152, 1024, 2037035976334486086268445688409378161051468393665936250636140449354381299763336706183397375, [⟨121, 0, 1024⟩]⟩,
    ⟨167, 8148143905337944345073782753637512644205873574663745002544561797417525199053346824733589503, 124655689424043314575993148383690752, 8148143905337944345073782753637512644205873574663745002544561797417525199053346824733589503, 2037035976334486086268445688409378161051468393665936229036185517849498365076471976493579759, []⟩,
    ⟨176, 8148143905337944345073782753637512644205873574663745002544561797417525199053346824733589503, 5316911983139663491615228241121378304, 1606938044258990275541962092341162602522202993782792835301376, 2037035976334486086268445688409378161051468393665936250636140449354381299763336706183397375, []⟩,
    ⟨185, 8148143905337944345073782753637512644205873574663745002544561797417525199053346824733589503, 302231454903657293676544, 8148143905337944345073782753637512644205873574663745002544561797417525199053346824733589503, 2037035976334486086268445688409378161051468393665936229036185517849498365076471976493579759, []⟩,
    ⟨192, 8148143905337944345073782753637512644205873574663745002544561797417525199053346824733589503, 43556142965880123323311949751266331066368, 421249166674228746791672110734681729275580381602196445017243910144, 2037035976334486086268445688409378161051468393665936250636140449354381299763336706183397375, []⟩,
    ⟨201, 8148143905337944345073782753637512644205873574663745002544561797417525199053346824733589503, 44601490397061246283071436545296723011960832, 862718293348820473429344482784628181556388621521298319395315527974912, 2037035976334486086268445688409378161051468393665936250636140449354381299763336706183397375, []⟩,
    ⟨203, 8148143905337944345073782753637512644205873574663745002544561797417525199053346824733589503, 89202980794122492566142873090593446023921664, 862718293348820473429344482784628181556388621521298319395315527974912, 2037035976334486086268445688409378161051468393665936250636140449354381299763336706183397375, []⟩]
  | .GroupedType => [
    ⟨159, 8148143905337944345073782753637512644205873574663745002544561797417525199053346824733589503, 2658455991569831745807614120560689152, 8148143905337944345073782753637512644205873574663745002544561797417525199053346824733589503, 2037035976334486086268445688409378161051468393665936250636140449354381299763336706183397375, []⟩,
    ⟨190, 8148143905337944345073782753637512644205873574663745002544561797417525199053346824733589503, 680564733841876926926749214863536422912, 8148143905337944345073782753637512644205873574663745002544561797417525199053346824733589503, 2037035976334486086268445688409378161051468393665936250636140449354381299763336706183397375, []⟩]
  | .GroupedTypeDeclarationOrConstraints => [
    ⟨38, 8148143905337944345073782753637512644205873574663745002544561797417525199053346824733589503, 1361129467683753853853498429727341281280, 8148143905337944345073782753637512644205873574663745002544561797417525199053346824733589503, 2037035976334486086268445688409378161051468393665936250636140449354381299763336706183397375, []⟩,
    ⟨159, 8148143905337944345073782753637512644205873574663745002544561797417525199053346824733589503, 2658455991569831745807614120560689152, 131080, 2037035976334486086268445688409378161051468393665936250636140449354381299763336706183397375, [⟨121, 0, 131080⟩]⟩]
  | .KeywordSequence => [
    ⟨115, 8148143905337944345073782753637512644205873574663745002544561797417525199053346824733589503, 46043073207979040833536, 8148143905337944345073782753637512644205873574663745002544561797417525199053346824733589503, 2037035976334486086268445688409378161051468393665936250636140449354381299763336706183397375, [⟨75, 0, 178405961588244985132285746181195688140865536⟩]⟩]
  | .KeywordWithExpr => [
    ⟨64, 8148143905337944345073782753637512619685944920809523097338001124503863126327601087901597631, 1606938044258990275541962092341162602522202993782792835301375, 8148143905337944345073782753637512644205873574663745002544561797417525199053346824733589503, 2037035976334486086268445688409378161051468393665936250636140449354381299763336706049179647, []⟩,
    ⟨64, 24519928653854221905206560672913662072725745736831991872, 1606938044258990275541962092341162602522202993782792835301375, 8148143905337944345073782753637512644205873574663745002544561797417525199053346824733589503, 2037035976334486086268445688409378161051468393665936250636140449354381299763336706049179119, []⟩]
  | .KeywordWithType => [
    ⟨190, 8148143905337944345073782753637512644205873574663745002544561797417525199053346824733589503, 680564733841876926926749214863536422912, 8148143905337944345073782753637512644205873574663745002544561797417525199053346824733589503, 2037035976334486086268445688409378161051468393665936250636140449354381299763336706183397375, []⟩]
  | .KeywordWithGroupedXXX => [
    ⟨79, 536870912, 85195247419658659235759877227454398464, 8148143905337944345073782753637512644205873574663745002544561797417525199053346824733589503, 2037035976334486086268445688409378161051468393665936229036185517849498365076471976493579759, [⟨59, 3213876088517980551083924184682325205044405987565585670602752, 8148143905337944345073782753637512644205873574663745002544561797417525199053346824733589503⟩]⟩,
    ⟨79, 22835963083305742690649645166448983174782386176, 124655689424043941765291654508445696, 8148143905337944345073782753637512644205873574663745002544561797417525199053346824733589503, 2037035976334486086268445688409378161051468393665936229036185517849498365076471976493579759, [⟨59, 3213876088517980551083924184682325205044405987565585670602752, 8148143905337944345073782753637512644205873574663745002544561797417525199053346824733589503⟩]⟩,
    ⟨79, 8148143905337944345073782753637512644205873551827781919238819106767880032604363649414332415, 124655689424043351469481295802793984, 8148143905337944345073782753637512644205873574663745002544561797417525199053346824733589503, 2037035976334486086268445688409378161051468393665936229036185517849498365076471976493579759, [⟨59, 3213876088517980551083924184682325205044405987565585670602752, 8148143905337944345073782753637512644205873574663745002544561797417525199053346824733589503⟩]⟩]
  | .KeywordWithStatement => [
    ⟨167, 8148143905337944345073782753637512644205873574663745002544561797417525199053346824733589503, 1606938044258990275541962092341162602522202993782792835301375, 8148143905337944345073782753637512644205873574663745002544561797417525199053346824733589503, 2037035976334486086268445688409378161051468393665935888753818596911034901701864544725368815, []⟩]
  | .KeywordWithStatements => [
    ⟨168, 8148143905337944345073782753637512644205873574663745002544561797417525199053346824733589503, 1606938044258990275541962092341162602522202993782792835301375, 8148143905337944345073782753637512644205873574663745002544561797417525199053346824733589503, 2037035976334486086268445688409378161051468393665935888753818596911034901701864544725368815, [⟨118, 0, 3064991081731777716716694054300618367237478244367204352⟩]⟩]
  | .Identifier => [
    ⟨4, 8148143905337944344628620114268309799280653903318181313403909304337334320098803826907152203, 1606938044258990275541962092341162602522202993782792835301375, 8148143905337944345073782753637512644205873574663745002544561797417525199053346824733589503, 2037035976334486086268445688409378161051468393665936229036185517849498365076471976493579759, []⟩,
    ⟨4, 445162639369202844925219671345563689140652493080190878954542997826437300, 302231454903657293676544, 8148143905337944345073782753637512644205873574663745002544561797417525199053346824733589503, 2037035976334486086268445688409378161051468393665936229036185517849498365076471976493579759, []⟩,
    ⟨9, 8148143905337944345073782753637512644205873574663745002544561797417525199053346824733589503, 1180591620717411303424, 536870912, 2037035976334486086268445688409378161051468393665936250636140449354381299763336706183397375, [⟨70, 0, 536870912⟩]⟩,
    ⟨27, 8148143905337944345073782753637512644205873574663745002544561797417525199053346824733589503, 2658455991569831745807614120560689152, 64, 2037035976334486086268445688409378161051468393665936250636140449354381299763336706183397375, [⟨121, 0, 64⟩]⟩,
    ⟨72, 8148143905337944345073782753637512644205873574663745002544561797417525199053346824733589503, 144115188075855872, 39614081257132168796771975168, 2037035976334486086268445688409378161051468393665936250636140449354381299763336706183397375, []⟩,
    ⟨107, 8148143905337944345073782753637512644205873574663745002544561797417525199053346824733589503, 2475880078570760549798248448, 10889035741470030830827987437816582766592, 2037035976334486086268445688409378161051468393665936250636140449354381299763336706183397375, []⟩,
    ⟨118, 8148143905337944345073782753637512644205873574663745002544561797417525199053346824733589503, 1180591620717411303424, 8148143905337944345073782753637512644205873574663745002544561797417525199053346824733589503, 2037035976334486086268445688409378161051468393665936250636140449354381299763336706183397375, []⟩,
    ⟨124, 8148143905337944345073782753637512644205873574663745002544561797417525199053346824733589503, 1180591620717411303424, 4722366482870718955520, 2037035976334486086268445688409378161051468393665936250636140449354381299763336706183397375, [⟨70, 0, 4722366482870718955520⟩]⟩,
    ⟨137, 8148143905337944345073782753637512644205873574663745002544561797417525199053346824733589503, 162259276829213363391578010288128, 1461501637330902918203684832716283019655932542976, 2037035976334486086268445688409378161051468393665936250636140449354381299763336706183397375, []⟩,
    ⟨154, 8148143905337944345073782753637512644205873574663745002544561797417525199053346824733589503, 1606938044258990275541962092341162602522202993782792835301375, 8148143905337944345073782753637512644205873574663745002544561797417525199053346824733589503, 2037035976334486086268445688409378161051468393665936250636140449354381299763336706049179119, []⟩,
    ⟨158, 8148143905337944345073782753637512644205873574663745002544561797417525199053346824733589503, 1606938044258990275541962092341162602522202993782792835301375, 8148143905337944345073782753637512644205873574663745002544561797417525199053346824733589503, 2037035976334486086268445688409378161051468393665936250636140449354381299763336706049179119, []⟩,
    ⟨176, 8148143905337944345073782753637512644205873574663745002544561797417525199053346824733589503, 5316911983139663491615228241121378304, 1606938044258990275541962092341162602522202993782792835301376, 2037035976334486086268445688409378161051468393665936250636140449354381299763336706183397375, []⟩,
    ⟨192, 8148143905337944345073782753637512644205873574663745002544561797417525199053346824733589503, 43556142965880123323311949751266331066368, 421249166674228746791672110734681729275580381602196445017243910144, 2037035976334486086268445688409378161051468393665936250636140449354381299763336706183397375, []⟩,
    ⟨203, 8148143905337944345073782753637512644205873574663745002544561797417525199053346824733589503, 89202980794122492566142873090593446023921664, 862718293348820473429344482784628181556388621521298319395315527974912, 2037035976334486086268445688409378161051468393665936250636140449354381299763336706183397375, []⟩]
  | .IdentWithOptions => [
    ⟨27, 8148143905337944345073782753637512644205873574663745002544561797417525199053346824733589503, 2658455991569831745807614120560689152, 64, 2037035976334486086268445688409378161051468393665936250636140449354381299763336706183397375, [⟨121, 0, 64⟩]⟩,
    ⟨104, 8148143905337944345073782753637512644205873574663745002544561797417525199053346824733589503, 1606938044258990275541962092341162602522202993782792835301375, 8148143905337944345073782753637512644205873574663745002544561797417525199053346824733589503, 2037035976334486086268445688409378161051468393665936229036185517849498365076471976493579759, []⟩,
    ⟨122, 8148143905337944345073782753637512644205873574663745002544561797417525199053346824733589503, 37778931862957161709568, 356811923176489970264571492362373784095686656, 2037035976334486086268445688409378161051468393665936250636140449354381299763336706183397375, [⟨75, 0, 356811923176489970264571492362373784095686656⟩]⟩,
    ⟨154, 8148143905337944345073782753637512644205873574663745002544561797417525199053346824733589503, 1606938044258990275541962092341162602522202993782792835301375, 8148143905337944345073782753637512644205873574663745002544561797417525199053346824733589503, 2037035976334486086268445688409378161051468393665936250636140449354381299763336706049179119, [⟨120, 1569275433846670190958947355801916604025588861116008628224, 8148143905337944345073782753637512644205873574663745002544561797417525199053346824733589503⟩]⟩,
    ⟨184, 8148143905337944345073782753637512644205873574663745002544561797417525199053346824733589503, 302231454903657293676544, 8148143905337944345073782753637512644205873574663745002544561797417525199053346824733589503, 2037035976334486086268445688409378161051468393665936229036185517849498365076471976493579759, []⟩]
  | .IfStatement => [
    ⟨21, 8148143905337944345073782753637512644205873574663745002544561797417525199053346824733589503, 2658455991569831745807614120560689152, 8148143905337944345073782753637512644205873574663745002544561797417525199053346824733589503, 2037035976334486086268445688409378161051468393665936250636140449354381299763336706183397375, []⟩,
    ⟨28, 8148143905337944345073782753637512644205873574663745002544561797417525199053346824733589503, 1606938044258990275541962092341162602522202993782792835301375, 8148143905337944345073782753637512644205873574663745002544561797417525199053346824733589503, 2037035976334486086268445688409378161051468393665936250636140449354381299763336706049179119, []⟩,
    ⟨52, 8148143905337944345073782753637512644205873574663745002544561797417525199053346824733589503, 151115727451828646838272, 8148143905337944345073782753637512644205873574663745002544561797417525199053346824733589503, 2037035976334486086268445688409378161051468393665936250636140449354381299763336706183397375, []⟩,
    ⟨53, 8148143905337944345073782753637512644205873574663745002544561797417525199053346824733589503, 1125899906842624, 151115727451828646838272, 2037035976334486086268445688409378161051468393665936250636140449354381299763336706183397375, []⟩,
    ⟨57, 8148143905337944345073782753637512644205873574663745002544561797417525199053346824733589503, 1180591620717411303424, 8148143905337944345073782753637512644205873574663745002544561797417525199053346824733589503, 2037035976334486086268445688409378161051468393665936250636140449354381299763336706183397375, []⟩,
    ⟨103, 8148143905337944345073782753637512644205873574663745002544561797417525199053346824733589503, 302231454903657293676544, 8148143905337944345073782753637512644205873574663745002544561797417525199053346824733589503, 2037035976334486086268445688409378161051468393665936229036185517849498365076471976493579759, []⟩,
    ⟨160, 8148143905337944345073782753637512644205873574663745002544561797417525199053346824733589503, 2658455991569831745807614120560689152, 1024, 2037035976334486086268445688409378161051468393665936250636140449354381299763336706183397375, [⟨121, 0, 1024⟩]⟩,
    ⟨179, 8148143905337944345073782753637512644205873574663745002544561797417525199053346824733589503, 151115727451828646838272, 8148143905337944345073782753637512644205873574663745002544561797417525199053346824733589503, 2037035976334486086268445688409378161051468393665936250636140449354381299763336706183397375, []⟩,
    ⟨185, 8148143905337944345073782753637512644205873574663745002544561797417525199053346824733589503, 302231454903657293676544, 8148143905337944345073782753637512644205873574663745002544561797417525199053346824733589503, 2037035976334486086268445688409378161051468393665936229036185517849498365076471976493579759, []⟩]
  | .InsertStatement => [
    ⟨21, 8148143905337944345073782753637512644205873574663745002544561797417525199053346824733589503, 2658455991569831745807614120560689152, 8148143905337944345073782753637512644205873574663745002544561797417525199053346824733589503, 2037035976334486086268445688409378161051468393665936250636140449354381299763336706183397375, []⟩,
    ⟨26, 8148143905337944345073782753637512644205873574663745002544561797417525199053346824733589503, 36893488147419103232, 8148143905337944345073782753637512644205873574663745002544561797417525199053346824733589503, 2037035976334486086268445688409378161051468393665936250636140449354381299763336706049179135, []⟩,
    ⟨93, 8148143905337944345073782753637512644205873574663745002544561797417525199053346824733589503, 124655689424053939900579605085421568, 8148143905337944345073782753637512644205873574663745002544561797417525199053346824733589503, 2037035976334486086268445688409378161051468393665936229036185517849498365076471976493579759, [⟨59, 3213876088517980551083924184682325205044405987565585670602752, 8148143905337944345073782753637512644205873574663745002544561797417525199053346824733589503⟩, ⟨70, 0, 196159429230833773869868419475239575503198607639501078528⟩, ⟨73, 0, 6739986666787659948666753771754907668409286105635143120275902562304⟩]⟩,
    ⟨94, 8148143905337944345073782753637512644205873574663745002544561797417525199053346824733589503, 1180591620717411303424, 166153499473114484112975882535043072, 2037035976334486086268445688409378161051468393665936250636140449354381299763336706183397375, [⟨70, 0, 166153499473114484112975882535043072⟩]⟩,
    ⟨103, 8148143905337944345073782753637512644205873574663745002544561797417525199053346824733589503, 302231454903657293676544, 8148143905337944345073782753637512644205873574663745002544561797417525199053346824733589503, 2037035976334486086268445688409378161051468393665936229036185517849498365076471976493579759, []⟩,
    ⟨160, 8148143905337944345073782753637512644205873574663745002544561797417525199053346824733589503, 2658455991569831745807614120560689152, 1024, 2037035976334486086268445688409378161051468393665936250636140449354381299763336706183397375, [⟨121, 0, 1024⟩]⟩,
    ⟨177, 8148143905337944345073782753637512644205873574663745002544561797417525199053346824733589503, 39614383488587213191554007040, 8148143905337944345073782753637512644205873574663745002544561797417525199053346824733589503, 2037035976334486086268445688409378161051468393665936229036185517849498365076471976493579759, []⟩,
    ⟨185, 8148143905337944345073782753637512644205873574663745002544561797417525199053346824733589503, 302231454903657293676544, 8148143905337944345073782753637512644205873574663745002544561797417525199053346824733589503, 2037035976334486086268445688409378161051468393665936229036185517849498365076471976493579759, []⟩]
  | .IntervalLiteral => [
    ⟨4, 8148143905337944345073782753637512644205873574663745002544561797417525199053346824733589503, 1606938044258990275541962092341162602522202993782792835301375, 8148143905337944345073782753637512644205873574663745002544561797417525199053346824733589503, 2037035976334486086268445688409378161051468393665936229036185517849498365076471976493579759, []⟩,
    ⟨9, 8148143905337944345073782753637512644205873574663745002544561797417525199053346824733589503, 1180591620717411303424, 536870912, 2037035976334486086268445688409378161051468393665936250636140449354381299763336706183397375, [⟨70, 0, 536870912⟩]⟩,
    ⟨27, 8148143905337944345073782753637512644205873574663745002544561797417525199053346824733589503, 2658455991569831745807614120560689152, 64, 2037035976334486086268445688409378161051468393665936250636140449354381299763336706183397375, [⟨121, 0, 64⟩]⟩,
    ⟨37, 8148143905337944345073782753637512644205873574663745002544561797417525199053346824733589503, 1180591620717411303424, 8148143905337944345073782753637512644205873574663745002544561797417525199053346824733589503, 2037035976334486086268445688409378161051468393665936250636140449354381299763336706183397375, []⟩,
    ⟨64, 8148143905337944345073782753637512644205873574663745002544561797417525199053346824733589503, 1606938044258990275541962092341162602522202993782792835301375, 8148143905337944345073782753637512644205873574663745002544561797417525199053346824733589503, 2037035976334486086268445688409378161051468393665936250636140449354381299763336706049179119, []⟩,
    ⟨118, 8148143905337944345073782753637512644205873574663745002544561797417525199053346824733589503, 1180591620717411303424, 8148143905337944345073782753637512644205873574663745002544561797417525199053346824733589503, 2037035976334486086268445688409378161051468393665936250636140449354381299763336706183397375, []⟩,
    ⟨124, 8148143905337944345073782753637512644205873574663745002544561797417525199053346824733589503, 1180591620717411303424, 4722366482870718955520, 2037035976334486086268445688409378161051468393665936250636140449354381299763336706183397375, [⟨70, 0, 4722366482870718955520⟩]⟩,
    ⟨158, 8148143905337944345073782753637512644205873574663745002544561797417525199053346824733589503, 1606938044258990275541962092341162602522202993782792835301375, 8148143905337944345073782753637512644205873574663745002544561797417525199053346824733589503, 2037035976334486086268445688409378161051468393665936250636140449354381299763336706049179119, []⟩,
    ⟨181, 8148143905337944345073782753637512644205873574663745002544561797417525199053346824733589503, 1180591620717411303424, 102844034832575377634685573909834406561420991602098741459288064, 2037035976334486086268445688409378161051468393665936250636140449354381299763336706183397375, [⟨70, 0, 102844034832575377634685573909834406561420991602098741459288064⟩]⟩,
    ⟨182, 8148143905337944345073782753637512644205873574663745002544561797417525199053346824733589503, 1180591620717411303424, 8148143905337944345073782753637512644205873574663745002544561797417525199053346824733589503, 2037035976334486086268445688409378161051468393665936250636140449354381299763336706183397375, []⟩]
  | .InOperator => [
    ⟨4, 8148143905337944345073782753637512644205873574663745002544561797417525199053346824733589503, 1606938044258990275541962092341162602522202993782792835301375, 8148143905337944345073782753637512644205873574663745002544561797417525199053346824733589503, 2037035976334486086268445688409378161051468393665936229036185517849498365076471976493579759, []⟩,
    ⟨9, 8148143905337944345073782753637512644205873574663745002544561797417525199053346824733589503, 1180591620717411303424, 536870912, 2037035976334486086268445688409378161051468393665936250636140449354381299763336706183397375, [⟨70, 0, 536870912⟩]⟩,
    ⟨27, 8148143905337944345073782753637512644205873574663745002544561797417525199053346824733589503, 2658455991569831745807614120560689152, 64, 2037035976334486086268445688409378161051468393665936250636140449354381299763336706183397375, [⟨121, 0, 64⟩]⟩,
    ⟨72, 8148143905337944345073782753637512644205873574663745002544561797417525199053346824733589503, 144115188075855872, 39614081257132168796771975168, 2037035976334486086268445688409378161051468393665936250636140449354381299763336706183397375, []⟩,
    ⟨107, 8148143905337944345073782753637512644205873574663745002544561797417525199053346824733589503, 2475880078570760549798248448, 10889035741470030830827987437816582766592, 2037035976334486086268445688409378161051468393665936250636140449354381299763336706183397375, []⟩,
    ⟨116, 8148143905337944345073782753637512644205873574663745002544561797417525199053346824733589503, 1180591620717411303424, 2787593149816327892691964784081045188247552, 2037035976334486086268445688409378161051468393665936250636140449354381299763336706183397375, [⟨70, 0, 2787593149816327892691964784081045188247552⟩]⟩,
    ⟨118, 8148143905337944345073782753637512644205873574663745002544561797417525199053346824733589503, 1180591620717411303424, 8148143905337944345073782753637512644205873574663745002544561797417525199053346824733589503, 2037035976334486086268445688409378161051468393665936250636140449354381299763336706183397375, []⟩,
    ⟨124, 8148143905337944345073782753637512644205873574663745002544561797417525199053346824733589503, 1180591620717411303424, 4722366482870718955520, 2037035976334486086268445688409378161051468393665936250636140449354381299763336706183397375, [⟨70, 0, 4722366482870718955520⟩]⟩,
    ⟨137, 8148143905337944345073782753637512644205873574663745002544561797417525199053346824733589503, 162259276829213363391578010288128, 1461501637330902918203684832716283019655932542976, 2037035976334486086268445688409378161051468393665936250636140449354381299763336706183397375, []⟩,
    ⟨154, 8148143905337944345073782753637512644205873574663745002544561797417525199053346824733589503, 184467440737162625024, 8148143905337944345073782753637512644205873574663745002544561797417525199053346824733589503, 2037035976334486086268445688409378161051466932164298919733222245669548583480317050116636143, []⟩,
    ⟨158, 8148143905337944345073782753637512644205873574663745002544561797417525199053346824733589503, 1606938044258990275541962092341162602522202993782792835301375, 8148143905337944345073782753637512644205873574663745002544561797417525199053346824733589503, 2037035976334486086268445688409378161051468393665936250636140449354381299763336706049179119, []⟩,
    ⟨176, 8148143905337944345073782753637512644205873574663745002544561797417525199053346824733589503, 5316911983139663491615228241121378304, 1606938044258990275541962092341162602522202993782792835301376, 2037035976334486086268445688409378161051468393665936250636140449354381299763336706183397375, []⟩,
    ⟨192, 8148143905337944345073782753637512644205873574663745002544561797417525199053346824733589503, 43556142965880123323311949751266331066368, 421249166674228746791672110734681729275580381602196445017243910144, 2037035976334486086268445688409378161051468393665936250636140449354381299763336706183397375, []⟩,
    ⟨203, 8148143905337944345073782753637512644205873574663745002544561797417525199053346824733589503, 89202980794122492566142873090593446023921664, 862718293348820473429344482784628181556388621521298319395315527974912, 2037035976334486086268445688409378161051468393665936250636140449354381299763336706183397375, []⟩]
  | .IsDistinctFromOperator => [
    ⟨4, 8148143905337944345073782753637512644205873574663745002544561797417525199053346824733589503, 1606938044258990275541962092341162602522202993782792835301375, 8148143905337944345073782753637512644205873574663745002544561797417525199053346824733589503, 2037035976334486086268445688409378161051468393665936229036185517849498365076471976493579759, []⟩,
    ⟨9, 8148143905337944345073782753637512644205873574663745002544561797417525199053346824733589503, 1180591620717411303424, 536870912, 2037035976334486086268445688409378161051468393665936250636140449354381299763336706183397375, [⟨70, 0, 536870912⟩]⟩,
    ⟨27, 8148143905337944345073782753637512644205873574663745002544561797417525199053346824733589503, 2658455991569831745807614120560689152, 64, 2037035976334486086268445688409378161051468393665936250636140449354381299763336706183397375, [⟨121, 0, 64⟩]⟩,
    ⟨45, 8148143905337944345073782753637512644205873574663745002544561797417525199053346824733589503, 1180591620717411303424, 8148143905337944345073782753637512644205873574663745002544561797417525199053346824733589503, 2037035976334486086268445688409378161051468393665936250636140449354381299763336706183397375, []⟩,
    ⟨72, 8148143905337944345073782753637512644205873574663745002544561797417525199053346824733589503, 144115188075855872, 39614081257132168796771975168, 2037035976334486086268445688409378161051468393665936250636140449354381299763336706183397375, []⟩,
    ⟨75, 8148143905337944345073782753637512644205873574663745002544561797417525199053346824733589503, 1180591620717411303424, 8148143905337944345073782753637512644205873574663745002544561797417525199053346824733589503, 2037035976334486086268445688409378161051468393665936250636140449354381299763336706183397375, []⟩,
    ⟨107, 8148143905337944345073782753637512644205873574663745002544561797417525199053346824733589503, 2475880078570760549798248448, 10889035741470030830827987437816582766592, 2037035976334486086268445688409378161051468393665936250636140449354381299763336706183397375, []⟩,
    ⟨116, 8148143905337944345073782753637512644205873574663745002544561797417525199053346824733589503, 1180591620717411303424, 2787593149816327892691964784081045188247552, 2037035976334486086268445688409378161051468393665936250636140449354381299763336706183397375, [⟨70, 0, 2787593149816327892691964784081045188247552⟩]⟩,
    ⟨118, 8148143905337944345073782753637512644205873574663745002544561797417525199053346824733589503, 1180591620717411303424, 8148143905337944345073782753637512644205873574663745002544561797417525199053346824733589503, 2037035976334486086268445688409378161051468393665936250636140449354381299763336706183397375, []⟩,
    ⟨124, 8148143905337944345073782753637512644205873574663745002544561797417525199053346824733589503, 1180591620717411303424, 4722366482870718955520, 2037035976334486086268445688409378161051468393665936250636140449354381299763336706183397375, [⟨70, 0, 4722366482870718955520⟩]⟩,
    ⟨137, 8148143905337944345073782753637512644205873574663745002544561797417525199053346824733589503, 162259276829213363391578010288128, 1461501637330902918203684832716283019655932542976, 2037035976334486086268445688409378161051468393665936250636140449354381299763336706183397375, []⟩,
    ⟨154, 8148143905337944345073782753637512644205873574663745002544561797417525199053346824733589503, 1606938044258990275541962092341162602522202993782792835301375, 8148143905337944345073782753637512644205873574663745002544561797417525199053346824733589503, 2037035976334486086268445688409378161051468393665936250636140449354381299763336706049179119, []⟩,
    ⟨158, 8148143905337944345073782753637512644205873574663745002544561797417525199053346824733589503, 1606938044258990275541962092341162602522202993782792835301375, 8148143905337944345073782753637512644205873574663745002544561797417525199053346824733589503, 2037035976334486086268445688409378161051468393665936250636140449354381299763336706049179119, []⟩,
    ⟨176, 8148143905337944345073782753637512644205873574663745002544561797417525199053346824733589503, 5316911983139663491615228241121378304, 1606938044258990275541962092341162602522202993782792835301376, 2037035976334486086268445688409378161051468393665936250636140449354381299763336706183397375, []⟩,
    ⟨192, 8148143905337944345073782753637512644205873574663745002544561797417525199053346824733589503, 43556142965880123323311949751266331066368, 421249166674228746791672110734681729275580381602196445017243910144, 2037035976334486086268445688409378161051468393665936250636140449354381299763336706183397375, []⟩,
    ⟨203, 8148143905337944345073782753637512644205873574663745002544561797417525199053346824733589503, 89202980794122492566142873090593446023921664, 862718293348820473429344482784628181556388621521298319395315527974912, 2037035976334486086268445688409378161051468393665936250636140449354381299763336706183397375, []⟩]
  | .JoinOperator => [
    ⟨95, 8148143905337944345073782753637512644205873574663745002544561797417525199053346824733589503, 1180591620717411303424, 24519928653854221903877332677128746199821938676551647232, 2037035976334486086268445688409378161051468393665936250636140449354381299763336706183397375, [⟨70, 0, 24519928653854221903877332677128746199821938676551647232⟩]⟩,
    ⟨104, 8148143905337944345073782753637512644205873574663745002544561797417525199053346824733589503, 1606938044258990275541962092341162602522202993782792835301375, 8148143905337944345073782753637512644205873574663745002544561797417525199053346824733589503, 2037035976334486086268445688409378161051468393665936250636140449354381299763336706049179647, []⟩,
    ⟨120, 8148143905337944345073782753637512644205873574663745002544561797417525199053346824733589503, 4722366482869645213696, 178405961588244985132285746181186892047843328, 2037035976334486086268445688409378161051468393665936250636140449354381299763336706183397375, [⟨72, 0, 178405961588244985132285746181186892047843328⟩]⟩,
    ⟨126, 8148143905337944345073782753637512644205873574663745002544561797417525199053346824733589503, 1180591620717411303424, 11417981541647679048466287755595961091061972992, 2037035976334486086268445688409378161051468393665936250636140449354381299763336706183397375, [⟨70, 0, 11417981541647679048466287755595961091061972992⟩]⟩,
    ⟨154, 8148143905337944345073782753637512644205873574663745002544561797417525199053346824733589503, 40604462605178772430354345623553, 8148143905337944345073782753637512644205873574663745002544561797417525199053346824733589503, 2037035976334486086268445688409378161051468393665936250636140449354381299763336706049179647, []⟩,
    ⟨194, 8148143905337944345073782753637512644205873574663745002544561797417525199053346824733589503, 1606938044258990275541962092341162602522202993782792835301375, 8148143905337944345073782753637512644205873574663745002544561797417525199053346824733589503, 2037035976334486086268445688409378161051468393665936250636140449354381299763336706049179119, []⟩,
    ⟨4, 8148143905337944345073782753637512644205873574663745002544561797417525199053346824733589503, 0, 0, 2037035976334486086268445688409378161051466932164298557850900393226202185418844888792825327, []⟩,
    ⟨9, 8148143905337944345073782753637512644205873574663745002544561797417525199053346824733589503, 0, 0, 2037035976334486086268445688409378161051466932164298557850900393226202185418844888792825327, []⟩,
    ⟨107, 8148143905337944345073782753637512644205873574663745002544561797417525199053346824733589503, 0, 0, 2037035976334486086268445688409378161051466932164298557850900393226202185418844888792825327, []⟩,
    ⟨137, 8148143905337944345073782753637512644205873574663745002544561797417525199053346824733589503, 0, 0, 2037035976334486086268445688409378161051466932164298557850900393226202185418844888792825327, []⟩,
    ⟨192, 8148143905337944345073782753637512644205873574663745002544561797417525199053346824733589503, 0, 0, 2037035976334486086268445688409378161051466932164298557850900393226202185418844888792825327, []⟩,
    ⟨203, 8148143905337944345073782753637512644205873574663745002544561797417525199053346824733589503, 0, 0, 2037035976334486086268445688409378161051466932164298557850900393226202185418844888792825327, []⟩]
  | .JoinPipeOperator => [
    ⟨65, 8148143905337944345073782753637512644205873574663745002544561797417525199053346824733589503, 40604462605178772430354345623553, 8148143905337944345073782753637512644205873574663745002544561797417525199053346824733589503, 2037035976334486086268445688409378161051468393665936250636140449354381299763336706049179647, []⟩,
    ⟨112, 8148143905337944345073782753637512644205873574663745002544561797417525199053346824733589503, 3541774862152233910272, 24519928665272203445525011725595033955417899767613620224, 2037035976334486086268445688409378161051468393665936250636140449354381299763336706183397375, [⟨70, 0, 24519928665272203445525011725595033955417899767613620224⟩, ⟨71, 41538374868278621028243970633760768, 24519928665272203445525011725595033955417899767613620224⟩]⟩,
    ⟨120, 8148143905337944345073782753637512644205873574663745002544561797417525199053346824733589503, 4722366482869645213696, 178405961588244985132285746181186892047843328, 2037035976334486086268445688409378161051468393665936250636140449354381299763336706183397375, [⟨72, 0, 178405961588244985132285746181186892047843328⟩]⟩,
    ⟨194, 8148143905337944345073782753637512644205873574663745002544561797417525199053346824733589503, 1606938044258990275541962092341162602522202993782792835301375, 8148143905337944345073782753637512644205873574663745002544561797417525199053346824733589503, 2037035976334486086268445688409378161051468393665936250636140449354381299763336706049179119, []⟩,
    ⟨99, 8148143905337944345073782753637512644205873574663745002544561797417525199053346824733589503, 0, 0, 2037035976334486086268445688409378161051466932164298557850900393226202185418844888792825327, []⟩]
  | .LimitClause => [
    ⟨64, 8148143905337944345073782753637512644205873574663745002544561797417525199053346824733589503, 1606938044258990275541962092341162602522202993782792835301375, 8148143905337944345073782753637512644205873574663745002544561797417525199053346824733589503, 2037035976334486086268445688409378161051468393665936250636140449354381299763336706049179119, []⟩,
    ⟨119, 8148143905337944345073782753637512644205873574663745002544561797417525199053346824733589503, 4722366482869645213696, 89202980794122492566142873090593446023921664, 2037035976334486086268445688409378161051468393665936250636140449354381299763336706183397375, [⟨72, 0, 89202980794122492566142873090593446023921664⟩]⟩]
  | .LimitPipeOperator => [
    ⟨119, 8148143905337944345073782753637512644205873574663745002544561797417525199053346824733589503, 4722366482869645213696, 89202980794122492566142873090593446023921664, 2037035976334486086268445688409378161051468393665936250636140449354381299763336706183397375, [⟨72, 0, 89202980794122492566142873090593446023921664⟩]⟩,
    ⟨99, 8148143905337944345073782753637512644205873574663745002544561797417525199053346824733589503, 0, 0, 2037035976334486086268445688409378161051466932164298557850900393226202185418844888792825327, []⟩]
  | .LoadStatement => [
    ⟨19, 8148143905337944345073782753637512644205873574663745002544561797417525199053346824733589503, 1427247692705959881058285969449495136382746624, 1125899906842624, 2037035976334486086268445688409378161051468393665936250636140449354381299763336706183397375, [⟨150, 0, 1125899906842624⟩]⟩,
    ⟨21, 8148143905337944345073782753637512644205873574663745002544561797417525199053346824733589503, 2658455991569831745807614120560689152, 8148143905337944345073782753637512644205873574663745002544561797417525199053346824733589503, 2037035976334486086268445688409378161051468393665936250636140449354381299763336706183397375, []⟩,
    ⟨23, 8148143905337944345073782753637512644205873574663745002544561797417525199053346824733589503, 590295810358705651712, 8148143905337944345073782753637512644205873574663745002544561797417525199053346824733589503, 2037035976334486086268445688409378161051468393665936250636140449354381299763336706183397375, []⟩,
    ⟨30, 8148143905337944345073782753637512644205873574663745002544561797417525199053346824733589503, 1180591620717411303424, 8148143905337944345073782753637512644205873574663745002544561797417525199053346824733589503, 2037035976334486086268445688409378161051468393665936250636140449354381299763336706183397375, []⟩,
    ⟨31, 8148143905337944345073782753637512644205873574663745002544561797417525199053346824733589503, 39614383488587213191554007040, 8148143905337944345073782753637512644205873574663745002544561797417525199053346824733589503, 2037035976334486086268445688409378161051468393665936229036185517849498365076471976493579759, []⟩,
    ⟨35, 8148143905337944345073782753637512644205873574663745002544561797417525199053346824733589503, 1180591620717411303424, 8148143905337944345073782753637512644205873574663745002544561797417525199053346824733589503, 2037035976334486086268445688409378161051468393665936250636140449354381299763336706183397375, []⟩,
    ⟨69, 8148143905337944345073782753637512644205873574663745002544561797417525199053346824733589503, 1180591620717411303424, 8148143905337944345073782753637512644205873574663745002544561797417525199053346824733589503, 2037035976334486086268445688409378161051468393665936250636140449354381299763336706183397375, []⟩,
    ⟨75, 8148143905337944345073782753637512644205873574663745002544561797417525199053346824733589503, 1180591620717411303424, 8148143905337944345073782753637512644205873574663745002544561797417525199053346824733589503, 2037035976334486086268445688409378161051468393665936250636140449354381299763336706183397375, []⟩,
    ⟨76, 8148143905337944345073782753637512644205873574663745002544561797417525199053346824733589503, 36893488147419103232, 8148143905337944345073782753637512644205873574663745002544561797417525199053346824733589503, 2037035976334486086268445688409378161051468393665936250636140449354381299763336706049179135, []⟩,
    ⟨84, 8148143905337944345073782753637512644205873574663745002544561797417525199053346824733589503, 39614383488587213191554007040, 8148143905337944345073782753637512644205873574663745002544561797417525199053346824733589503, 2037035976334486086268445688409378161051468393665936229036185517849498365076471976493579759, []⟩,
    ⟨94, 8148143905337944345073782753637512644205873574663745002544561797417525199053346824733589503, 1180591620717411303424, 8148143905337944345073782753637512644205873574663745002544561797417525199053346824733589503, 2037035976334486086268445688409378161051468393665936250636140449354381299763336706183397375, []⟩,
    ⟨103, 8148143905337944345073782753637512644205873574663745002544561797417525199053346824733589503, 302231454903657293676544, 8148143905337944345073782753637512644205873574663745002544561797417525199053346824733589503, 2037035976334486086268445688409378161051468393665936229036185517849498365076471976493579759, []⟩,
    ⟨122, 8148143905337944345073782753637512644205873574663745002544561797417525199053346824733589503, 37778931862957161709568, 356811923176489970264571492362373784095686656, 2037035976334486086268445688409378161051468393665936250636140449354381299763336706183397375, [⟨75, 0, 356811923176489970264571492362373784095686656⟩]⟩,
    ⟨130, 8148143905337944345073782753637512644205873574663745002544561797417525199053346824733589503, 1267650600228229401496703205376, 8148143905337944345073782753637512644205873574663745002544561797417525199053346824733589503, 2037035976334486086268445688409378161051468393665936250636140449354381299763336706183397375, []⟩,
    ⟨133, 8148143905337944345073782753637512644205873574663745002544561797417525199053346824733589503, 1427247692705959881058285969449495136382746624, 182687704666362864775460604089535377456991567872, 2037035976334486086268445688409378161051468393665936250636140449354381299763336706183397375, [⟨150, 0, 182687704666362864775460604089535377456991567872⟩]⟩,
    ⟨160, 8148143905337944345073782753637512644205873574663745002544561797417525199053346824733589503, 2658455991569831745807614120560689152, 1024, 2037035976334486086268445688409378161051468393665936250636140449354381299763336706183397375, [⟨121, 0, 1024⟩]⟩,
    ⟨185, 8148143905337944345073782753637512644205873574663745002544561797417525199053346824733589503, 302231454903657293676544, 8148143905337944345073782753637512644205873574663745002544561797417525199053346824733589503, 2037035976334486086268445688409378161051468393665936229036185517849498365076471976493579759, []⟩,
    ⟨201, 8148143905337944345073782753637512644205873574663745002544561797417525199053346824733589503, 1180591620717411303424, 862718293348820473429344482784628181556388621521298319395315527974912, 2037035976334486086268445688409378161051468393665936250636140449354381299763336706183397375, [⟨70, 0, 862718293348820473429344482784628181556388621521298319395315527974912⟩]⟩,
    ⟨204, 8148143905337944345073782753637512644205873574663745002544561797417525199053346824733589503, 356811923176489970264571492362373784095686656, 862718293348820473429344482784628181556388621521298319395315527974912, 2037035976334486086268445688409378161051468393665936250636140449354381299763336706183397375, []⟩]
  | .LoopStatement => [
    ⟨21, 8148143905337944345073782753637512644205873574663745002544561797417525199053346824733589503, 2658455991569831745807614120560689152, 8148143905337944345073782753637512644205873574663745002544561797417525199053346824733589503, 2037035976334486086268445688409378161051468393665936250636140449354381299763336706183397375, []⟩,
    ⟨58, 8148143905337944345073782753637512644205873574663745002544561797417525199053346824733589503, 1180591620717411303424, 8148143905337944345073782753637512644205873574663745002544561797417525199053346824733589503, 2037035976334486086268445688409378161051468393665936250636140449354381299763336706183397375, []⟩,
    ⟨103, 8148143905337944345073782753637512644205873574663745002544561797417525199053346824733589503, 302231454903657293676544, 8148143905337944345073782753637512644205873574663745002544561797417525199053346824733589503, 2037035976334486086268445688409378161051468393665936229036185517849498365076471976493579759, []⟩,
    ⟨160, 8148143905337944345073782753637512644205873574663745002544561797417525199053346824733589503, 2658455991569831745807614120560689152, 1024, 2037035976334486086268445688409378161051468393665936250636140449354381299763336706183397375, [⟨121, 0, 1024⟩]⟩,
    ⟨168, 8148143905337944345073782753637512644205873574663745002544561797417525199053346824733589503, 1606938044258990275541962092341162602522202993782792835301375, 8148143905337944345073782753637512644205873574663745002544561797417525199053346824733589503, 2037035976334486086268445688409378161051468393665935888753818596911034901701864544725368815, [⟨118, 0, 3064991081731777716716694054300618367237478244367204352⟩]⟩,
    ⟨185, 8148143905337944345073782753637512644205873574663745002544561797417525199053346824733589503, 302231454903657293676544, 8148143905337944345073782753637512644205873574663745002544561797417525199053346824733589503, 2037035976334486086268445688409378161051468393665936229036185517849498365076471976493579759, []⟩]
  | .MatchRecognizeClause => [
    ⟨4, 8148143905337944345073782753637512644205873574663745002544561797417525199053346824733589503, 302231454903657293676544, 8148143905337944345073782753637512644205873574663745002544561797417525199053346824733589503, 2037035976334486086268445688409378161051468393665936229036185517849498365076471976493579759, []⟩,
    ⟨9, 8148143905337944345073782753637512644205873574663745002544561797417525199053346824733589503, 1180591620717411303424, 536870912, 2037035976334486086268445688409378161051468393665936250636140449354381299763336706183397375, [⟨70, 0, 536870912⟩]⟩,
    ⟨29, 8148143905337944345073782753637512644205873574663745002544561797417525199053346824733589503, 4951760157141521099596496896, 8148143905337944345073782753637512644205873574663745002544561797417525199053346824733589503, 2037035976334486086268445688409378161051468393665936250636140449354381299763336706183397375, []⟩]
  | .MatchRecognizeConfig => [
    ⟨41, 8148143905337944345073782753637512644205873574663745002544561797417525199053346824733589503, 9444732965739290427392, 1180591620717411303424, 2037035976334486086268445688409378161051468393665936250636140449354381299763336706183397375, [⟨73, 0, 1180591620717411303424⟩]⟩,
    ⟨111, 8148143905337944345073782753637512644205873574663745002544561797417525199053346824733589503, 9444732965739290427392, 43556142965880123323311949751266331066368, 2037035976334486086268445688409378161051468393665936250636140449354381299763336706183397375, [⟨73, 0, 43556142965880123323311949751266331066368⟩]⟩,
    ⟨122, 8148143905337944345073782753637512644205873574663745002544561797417525199053346824733589503, 37778931862957161709568, 356811923176489970264571492362373784095686656, 2037035976334486086268445688409378161051468393665936250636140449354381299763336706183397375, [⟨75, 0, 356811923176489970264571492362373784095686656⟩]⟩,
    ⟨125, 8148143905337944345073782753637512644205873574663745002544561797417525199053346824733589503, 1427247692705959881058285969449495136382746624, 1427247692705959881058285969449495136382746624, 2037035976334486086268445688409378161051468393665936250636140449354381299763336706183397375, [⟨150, 0, 1427247692705959881058285969449495136382746624⟩]⟩,
    ⟨133, 8148143905337944345073782753637512644205873574663745002544561797417525199053346824733589503, 1427247692705959881058285969449495136382746624, 182687704666362864775460604089535377456991567872, 2037035976334486086268445688409378161051468393665936250636140449354381299763336706183397375, [⟨150, 0, 182687704666362864775460604089535377456991567872⟩]⟩,
    ⟨134, 8148143905337944345073782753637512644205873574663745002544561797417525199053346824733589503, 10141204801825835211973625643008, 730750818665451459101842416358141509827966271488, 2037035976334486086268445688409378161051468393665936250636140449354381299763336706183397375, []⟩,
    ⟨159, 8148143905337944345073782753637512644205873574663745002544561797417525199053346824733589503, 2658455991569831745807614120560689152, 8148143905337944345073782753637512644205873574663745002544561797417525199053346824733589503, 2037035976334486086268445688409378161051468393665936250636140449354381299763336706183397375, []⟩,
    ⟨162, 8148143905337944345073782753637512644205873574663745002544561797417525199053346824733589503, 2361183241434822606848, 4194304, 2037035976334486086268445688409378161051468393665936250636140449354381299763336706183397375, [⟨71, 41538374868278621028243970633760768, 4194304⟩]⟩]
  | .MatchRecognizePipeOperator => [
    ⟨4, 8148143905337944345073782753637512644205873574663745002544561797417525199053346824733589503, 302231454903657293676544, 8148143905337944345073782753637512644205873574663745002544561797417525199053346824733589503, 2037035976334486086268445688409378161051468393665936229036185517849498365076471976493579759, []⟩,
    ⟨9, 8148143905337944345073782753637512644205873574663745002544561797417525199053346824733589503, 1180591620717411303424, 536870912, 2037035976334486086268445688409378161051468393665936250636140449354381299763336706183397375, [⟨70, 0, 536870912⟩]⟩,
    ⟨29, 8148143905337944345073782753637512644205873574663745002544561797417525199053346824733589503, 4951760157141521099596496896, 8148143905337944345073782753637512644205873574663745002544561797417525199053346824733589503, 2037035976334486086268445688409378161051468393665936250636140449354381299763336706183397375, []⟩]
  | .MergeStatement => [
    ⟨21, 8148143905337944345073782753637512644205873574663745002544561797417525199053346824733589503, 2658455991569831745807614120560689152, 8148143905337944345073782753637512644205873574663745002544561797417525199053346824733589503, 2037035976334486086268445688409378161051468393665936250636140449354381299763336706183397375, []⟩,
    ⟨94, 8148143905337944345073782753637512644205873574663745002544561797417525199053346824733589503, 1180591620717411303424, 166153499473114484112975882535043072, 2037035976334486086268445688409378161051468393665936250636140449354381299763336706183397375, [⟨70, 0, 166153499473114484112975882535043072⟩]⟩,
    ⟨103, 8148143905337944345073782753637512644205873574663745002544561797417525199053346824733589503, 302231454903657293676544, 8148143905337944345073782753637512644205873574663745002544561797417525199053346824733589503, 2037035976334486086268445688409378161051468393665936229036185517849498365076471976493579759, []⟩,
    ⟨120, 8148143905337944345073782753637512644205873574663745002544561797417525199053346824733589503, 4722366482869645213696, 8148143905337944345073782753637512644205873574663745002544561797417525199053346824733589503, 2037035976334486086268445688409378161051468393665936250636140449354381299763336706183397375, []⟩,
    ⟨160, 8148143905337944345073782753637512644205873574663745002544561797417525199053346824733589503, 2658455991569831745807614120560689152, 1024, 2037035976334486086268445688409378161051468393665936250636140449354381299763336706183397375, [⟨121, 0, 1024⟩]⟩,
    ⟨174, 8148143905337944345073782753637512644205873574663745002544561797417525199053346824733589503, 1606938044258990275541962092341162602522202993782792835301375, 8148143905337944345073782753637512644205873574663745002544561797417525199053346824733589503, 2037035976334486086268445688409378161051468393665936250636140449354381299763336706049179647, []⟩,
    ⟨185, 8148143905337944345073782753637512644205873574663745002544561797417525199053346824733589503, 302231454903657293676544, 8148143905337944345073782753637512644205873574663745002544561797417525199053346824733589503, 2037035976334486086268445688409378161051468393665936229036185517849498365076471976493579759, []⟩,
    ⟨194, 8148143905337944345073782753637512644205873574663745002544561797417525199053346824733589503, 4722366482869645213696, 8148143905337944345073782753637512644205873574663745002544561797417525199053346824733589503, 2037035976334486086268445688409378161051468393665936250636140449354381299763336706183397375, []⟩,
    ⟨197, 8148143905337944345073782753637512644205873574663745002544561797417525199053346824733589503, 696898287454081973172991196020261297061888, 53919893334301279589334030174039261347274288845081144962207220498432, 2037035976334486086268445688409378161051468393665936250636140449354381299763336706183397375, []⟩]
  | .MultiTokenIdentifier => [
    ⟨4, 8148143905337944345073782753637512644205873574663745002544561797417525199053346824733589503, 302231454903657293676544, 8148143905337944345073782753637512644205873574663745002544561797417525199053346824733589503, 2037035976334486086268445688409378161051468393665936229036185517849498365076471976493579759, []⟩,
    ⟨9, 8148143905337944345073782753637512644205873574663745002544561797417525199053346824733589503, 1180591620717411303424, 536870912, 2037035976334486086268445688409378161051468393665936250636140449354381299763336706183397375, [⟨70, 0, 536870912⟩]⟩,
    ⟨72, 8148143905337944345073782753637512644205873574663745002544561797417525199053346824733589503, 144115188075855872, 39614081257132168796771975168, 2037035976334486086268445688409378161051468393665936250636140449354381299763336706183397375, []⟩,
    ⟨107, 8148143905337944345073782753637512644205873574663745002544561797417525199053346824733589503, 2475880078570760549798248448, 10889035741470030830827987437816582766592, 2037035976334486086268445688409378161051468393665936250636140449354381299763336706183397375, []⟩,
    ⟨118, 8148143905337944345073782753637512644205873574663745002544561797417525199053346824733589503, 1180591620717411303424, 8148143905337944345073782753637512644205873574663745002544561797417525199053346824733589503, 2037035976334486086268445688409378161051468393665936250636140449354381299763336706183397375, []⟩,
    ⟨124, 8148143905337944345073782753637512644205873574663745002544561797417525199053346824733589503, 1180591620717411303424, 4722366482870718955520, 2037035976334486086268445688409378161051468393665936250636140449354381299763336706183397375, [⟨70, 0, 4722366482870718955520⟩]⟩,
    ⟨137, 8148143905337944345073782753637512644205873574663745002544561797417525199053346824733589503, 162259276829213363391578010288128, 1461501637330902918203684832716283019655932542976, 2037035976334486086268445688409378161051468393665936250636140449354381299763336706183397375, []⟩,
    ⟨176, 8148143905337944345073782753637512644205873574663745002544561797417525199053346824733589503, 5316911983139663491615228241121378304, 1606938044258990275541962092341162602522202993782792835301376, 2037035976334486086268445688409378161051468393665936250636140449354381299763336706183397375, []⟩,
    ⟨184, 8148143905337944345073782753637512644205873574663745002544561797417525199053346824733589503, 302231454903657293676544, 8148143905337944345073782753637512644205873574663745002544561797417525199053346824733589503, 2037035976334486086268445688409378161051468393665936229036185517849498365076471976493579759, []⟩,
    ⟨192, 8148143905337944345073782753637512644205873574663745002544561797417525199053346824733589503, 43556142965880123323311949751266331066368, 421249166674228746791672110734681729275580381602196445017243910144, 2037035976334486086268445688409378161051468393665936250636140449354381299763336706183397375, []⟩,
    ⟨203, 8148143905337944345073782753637512644205873574663745002544561797417525199053346824733589503, 89202980794122492566142873090593446023921664, 862718293348820473429344482784628181556388621521298319395315527974912, 2037035976334486086268445688409378161051468393665936250636140449354381299763336706183397375, []⟩,
    ⟨27, 8148143905337944345073782753637512644205873574663745002544561797417525199053346824733589503, 0, 0, 2037035976334486086268445688409378161051466932164298557850900393226202185418844888792825327, []⟩]
  | .NumericLiteral => [
    ⟨4, 8148143905337944345073782753637512644205873574663745002544561797417525199053346824733589503, 1606938044258990275541962092341162602522202993782792835301375, 8148143905337944345073782753637512644205873574663745002544561797417525199053346824733589503, 2037035976334486086268445688409378161051468393665936229036185517849498365076471976493579759, []⟩,
    ⟨9, 8148143905337944345073782753637512644205873574663745002544561797417525199053346824733589503, 1180591620717411303424, 536870912, 2037035976334486086268445688409378161051468393665936250636140449354381299763336706183397375, [⟨70, 0, 536870912⟩]⟩,
    ⟨27, 8148143905337944345073782753637512644205873574663745002544561797417525199053346824733589503, 2658455991569831745807614120560689152, 64, 2037035976334486086268445688409378161051468393665936250636140449354381299763336706183397375, [⟨121, 0, 64⟩]⟩,
    ⟨118, 8148143905337944345073782753637512644205873574663745002544561797417525199053346824733589503, 1180591620717411303424, 8148143905337944345073782753637512644205873574663745002544561797417525199053346824733589503, 2037035976334486086268445688409378161051468393665936250636140449354381299763336706183397375, []⟩,
    ⟨124, 8148143905337944345073782753637512644205873574663745002544561797417525199053346824733589503, 1180591620717411303424, 4722366482870718955520, 2037035976334486086268445688409378161051468393665936250636140449354381299763336706183397375, [⟨70, 0, 4722366482870718955520⟩]⟩,
    ⟨154, 8148143905337944345073782753637512644205873574663745002544561797417525199053346824733589503, 1606938044258990275541962092341162602522202993782792835301375, 8148143905337944345073782753637512644205873574663745002544561797417525199053346824733589503, 2037035976334486086268445688409378161051468393665936250636140449354381299763336706049179119, []⟩,
    ⟨158, 8148143905337944345073782753637512644205873574663745002544561797417525199053346824733589503, 1606938044258990275541962092341162602522202993782792835301375, 8148143905337944345073782753637512644205873574663745002544561797417525199053346824733589503, 2037035976334486086268445688409378161051468393665936250636140449354381299763336706049179119, []⟩]
  | .NullLiteral => [
    ⟨4, 8148143905337944345073782753637512644205873574663745002544561797417525199053346824733589503, 1606938044258990275541962092341162602522202993782792835301375, 8148143905337944345073782753637512644205873574663745002544561797417525199053346824733589503, 2037035976334486086268445688409378161051468393665936229036185517849498365076471976493579759, []⟩,
    ⟨9, 8148143905337944345073782753637512644205873574663745002544561797417525199053346824733589503, 1180591620717411303424, 536870912, 2037035976334486086268445688409378161051468393665936250636140449354381299763336706183397375, [⟨70, 0, 536870912⟩]⟩,
    ⟨27, 8148143905337944345073782753637512644205873574663745002544561797417525199053346824733589503, 2658455991569831745807614120560689152, 64, 2037035976334486086268445688409378161051468393665936250636140449354381299763336706183397375, [⟨121, 0, 64⟩]⟩,
    ⟨118, 8148143905337944345073782753637512644205873574663745002544561797417525199053346824733589503, 1180591620717411303424, 8148143905337944345073782753637512644205873574663745002544561797417525199053346824733589503, 2037035976334486086268445688409378161051468393665936250636140449354381299763336706183397375, []⟩,
    ⟨124, 8148143905337944345073782753637512644205873574663745002544561797417525199053346824733589503, 1180591620717411303424, 4722366482870718955520, 2037035976334486086268445688409378161051468393665936250636140449354381299763336706183397375, [⟨70, 0, 4722366482870718955520⟩]⟩,
    ⟨154, 8148143905337944345073782753637512644205873574663745002544561797417525199053346824733589503, 1606938044258990275541962092341162602522202993782792835301375, 8148143905337944345073782753637512644205873574663745002544561797417525199053346824733589503, 2037035976334486086268445688409378161051468393665936250636140449354381299763336706049179119, []⟩,
    ⟨158, 8148143905337944345073782753637512644205873574663745002544561797417525199053346824733589503, 1606938044258990275541962092341162602522202993782792835301375, 8148143905337944345073782753637512644205873574663745002544561797417525199053346824733589503, 2037035976334486086268445688409378161051468393665936250636140449354381299763336706049179119, []⟩]
  | .OrPattern => [
    ⟨104, 8148143905337944345073782753637512644205873574663745002544561797417525199053346824733589503, 5387515051043761932655826829312, 8148143905337944345073782753637512644205873574663745002544561797417525199053346824733589503, 2037035976334486086268445688409378161051468393665936250636140449354381299763336706183397375, []⟩,
    ⟨154, 8148143905337944345073782753637512644205873574663745002544561797417525199053346824733589503, 5070602400986704582281651027968, 8148143905337944345073782753637512644205873574663745002544561797417525199053346824733589503, 2037035976334486086268445688409378161051468393665936250636140449354381299763336706183397375, []⟩]
  | .OverClause => [
    ⟨199, 8148143905337944345073782753637512644205873574663745002544561797417525199053346824733589503, 22300745198530623141837949727552018799656960, 8148143905337944345073782753637512644205873574663745002544561797417525199053346824733589503, 2037035976334486086268445688409378161051468393665936229036185517849498365076471976493579759, []⟩]
  | .OverwritePartitionsClause => [
    ⟨81, 8148143905337944345073782753637512644205873574663745002544561797417525199053346824733589503, 1606938044258990275541962092341162602522202993782792835301375, 8148143905337944345073782753637512644205873574663745002544561797417525199053346824733589503, 2037035976334486086268445688409378161051468393665936250636140449354381299763336706049179119, []⟩,
    ⟨129, 8148143905337944345073782753637512644205873574663745002544561797417525199053346824733589503, 1180591620717411303424, 91343852333181432387730302044767688728495783936, 2037035976334486086268445688409378161051468393665936250636140449354381299763336706183397375, [⟨70, 0, 91343852333181432387730302044767688728495783936⟩]⟩]
  | .Parameter => [
    ⟨4, 8148143905337944345073782753637512644205873574663745002544561797417525199053346824733589503, 1606938044258990275541962092341162602522202993782792835301375, 8148143905337944345073782753637512644205873574663745002544561797417525199053346824733589503, 2037035976334486086268445688409378161051468393665936229036185517849498365076471976493579759, []⟩,
    ⟨9, 8148143905337944345073782753637512644205873574663745002544561797417525199053346824733589503, 1180591620717411303424, 536870912, 2037035976334486086268445688409378161051468393665936250636140449354381299763336706183397375, [⟨70, 0, 536870912⟩]⟩,
    ⟨27, 8148143905337944345073782753637512644205873574663745002544561797417525199053346824733589503, 2658455991569831745807614120560689152, 64, 2037035976334486086268445688409378161051468393665936250636140449354381299763336706183397375, [⟨121, 0, 64⟩]⟩,
    ⟨118, 8148143905337944345073782753637512644205873574663745002544561797417525199053346824733589503, 1180591620717411303424, 8148143905337944345073782753637512644205873574663745002544561797417525199053346824733589503, 2037035976334486086268445688409378161051468393665936250636140449354381299763336706183397375, []⟩,
    ⟨124, 8148143905337944345073782753637512644205873574663745002544561797417525199053346824733589503, 1180591620717411303424, 4722366482870718955520, 2037035976334486086268445688409378161051468393665936250636140449354381299763336706183397375, [⟨70, 0, 4722366482870718955520⟩]⟩,
    ⟨154, 8148143905337944345073782753637512644205873574663745002544561797417525199053346824733589503, 1606938044258990275541962092341162602522202993782792835301375, 8148143905337944345073782753637512644205873574663745002544561797417525199053346824733589503, 2037035976334486086268445688409378161051468393665936250636140449354381299763336706049179119, []⟩,
    ⟨158, 8148143905337944345073782753637512644205873574663745002544561797417525199053346824733589503, 1606938044258990275541962092341162602522202993782792835301375, 8148143905337944345073782753637512644205873574663745002544561797417525199053346824733589503, 2037035976334486086268445688409378161051468393665936250636140449354381299763336706049179119, []⟩,
    ⟨72, 8148143905337944345073782753637512644205873574663745002544561797417525199053346824733589503, 0, 0, 2037035976334486086268445688409378161051466932164298557850900393226202185418844888792825327, []⟩,
    ⟨107, 8148143905337944345073782753637512644205873574663745002544561797417525199053346824733589503, 0, 0, 2037035976334486086268445688409378161051466932164298557850900393226202185418844888792825327, []⟩,
    ⟨137, 8148143905337944345073782753637512644205873574663745002544561797417525199053346824733589503, 0, 0, 2037035976334486086268445688409378161051466932164298557850900393226202185418844888792825327, []⟩,
    ⟨176, 8148143905337944345073782753637512644205873574663745002544561797417525199053346824733589503, 0, 0, 2037035976334486086268445688409378161051466932164298557850900393226202185418844888792825327, []⟩,
    ⟨192, 8148143905337944345073782753637512644205873574663745002544561797417525199053346824733589503, 0, 0, 2037035976334486086268445688409378161051466932164298557850900393226202185418844888792825327, []⟩,
    ⟨203, 8148143905337944345073782753637512644205873574663745002544561797417525199053346824733589503, 0, 0, 2037035976334486086268445688409378161051466932164298557850900393226202185418844888792825327, []⟩]
  | .Pattern => [
    ⟨170, 8148143905337944345073782753637512644205873574663745002544561797417525199053346824733589503, 2658476273979435397478038067811975168, 27606985387162255149739023449108101809804435888681546220650096896245808, 2037035976334486086268445688409378161051468393665936250636140449354381299763336706183397375, [⟨121, 0, 1048624⟩]⟩]
  | .PatternClause => [
    ⟨134, 8148143905337944345073782753637512644205873574663745002544561797417525199053346824733589503, 5070602400986704582281651027968, 8148143905337944345073782753637512644205873574663745002544561797417525199053346824733589503, 2037035976334486086268445688409378161051468393665936250636140449354381299763336706183397375, []⟩]
  | .PatternQuantifier => [
    ⟨27, 8148143905337944345073782753637512644205873574663745002544561797417525199053346824733589503, 2658455991569831745807614120560689152, 64, 2037035976334486086268445688409378161051468393665936250636140449354381299763336706183397375, [⟨121, 0, 64⟩]⟩,
    ⟨110, 8148143905337944345073782753637512644205873574663745002544561797417525199053346824733589503, 79228162514264337593543950336, 8148143905337944345073782753637512644205873574663745002544561797417525199053346824733589503, 2037035976334486086268445688409378161051468393665936229036185517849498365076471976493579759, []⟩,
    ⟨113, 8148143905337944345073782753637512644205873574663745002544561797417525199053346824733589503, 79228162514264337593543950336, 8148143905337944345073782753637512644205873574663745002544561797417525199053346824733589503, 2037035976334486086268445688409378161051468393665936229036185517849498365076471976493579759, []⟩,
    ⟨144, 8148143905337944345073782753637512644205873574663745002544561797417525199053346824733589503, 2658455991569831745807614120560689152, 8148143905337944345073782753637512644205873574663745002544561797417525199053346824733589503, 2037035976334486086268445688409378161051468393665936250636140449354381299763336706183397375, []⟩]
  | .PipeStatement => [
    ⟨4, 8148143905337944345073782753637512644205873574663745002544561797417525199053346824733589503, 1606938044258990275541962092341162602522202993782792835301375, 8148143905337944345073782753637512644205873574663745002544561797417525199053346824733589503, 2037035976334486086268445688409378161051468393665936229036185517849498365076471976493579759, []⟩,
    ⟨9, 8148143905337944345073782753637512644205873574663745002544561797417525199053346824733589503, 1180591620717411303424, 536870912, 2037035976334486086268445688409378161051468393665936250636140449354381299763336706183397375, [⟨70, 0, 536870912⟩]⟩,
    ⟨21, 8148143905337944345073782753637512644205873574663745002544561797417525199053346824733589503, 2658455991569831745807614120560689152, 8148143905337944345073782753637512644205873574663745002544561797417525199053346824733589503, 2037035976334486086268445688409378161051468393665936250636140449354381299763336706183397375, []⟩,
    ⟨27, 8148143905337944345073782753637512644205873574663745002544561797417525199053346824733589503, 2658455991569831745807614120560689152, 64, 2037035976334486086268445688409378161051468393665936250636140449354381299763336706183397375, [⟨121, 0, 64⟩]⟩,
    ⟨72, 8148143905337944345073782753637512644205873574663745002544561797417525199053346824733589503, 144115188075855872, 39614081257132168796771975168, 2037035976334486086268445688409378161051468393665936250636140449354381299763336706183397375, []⟩,
    ⟨103, 8148143905337944345073782753637512644205873574663745002544561797417525199053346824733589503, 302231454903657293676544, 8148143905337944345073782753637512644205873574663745002544561797417525199053346824733589503, 2037035976334486086268445688409378161051468393665936229036185517849498365076471976493579759, []⟩,
    ⟨107, 8148143905337944345073782753637512644205873574663745002544561797417525199053346824733589503, 2475880078570760549798248448, 10889035741470030830827987437816582766592, 2037035976334486086268445688409378161051468393665936250636140449354381299763336706183397375, []⟩,
    ⟨118, 8148143905337944345073782753637512644205873574663745002544561797417525199053346824733589503, 1180591620717411303424, 8148143905337944345073782753637512644205873574663745002544561797417525199053346824733589503, 2037035976334486086268445688409378161051468393665936250636140449354381299763336706183397375, []⟩,
    ⟨124, 8148143905337944345073782753637512644205873574663745002544561797417525199053346824733589503, 1180591620717411303424, 4722366482870718955520, 2037035976334486086268445688409378161051468393665936250636140449354381299763336706183397375, [⟨70, 0, 4722366482870718955520⟩]⟩,
    ⟨137, 8148143905337944345073782753637512644205873574663745002544561797417525199053346824733589503, 162259276829213363391578010288128, 1461501637330902918203684832716283019655932542976, 2037035976334486086268445688409378161051468393665936250636140449354381299763336706183397375, []⟩,
    ⟨154, 8148143905337944345073782753637512644205873574663745002544561797417525199053346824733589503, 178514862600577367998096503678270933966258184, 8148143905337944345073782753637512644205873574663745002544561797417525199053346824733589503, 2037035976334486086268445688409378161051468393665936250636140449354381299763336706183397375, [⟨3, 36893488147419103232, 8148143905337944345073782753637512644205873574663745002544561797417525199053346824733589503⟩, ⟨18, 36893488147419103232, 8148143905337944345073782753637512644205873574663745002544561797417525199053346824733589503⟩, ⟨70, 0, 18889465931478580854784⟩, ⟨86, 36893488147419103232, 8148143905337944345073782753637512644205873574663745002544561797417525199053346824733589503⟩, ⟨88, 36893488147419103232, 8148143905337944345073782753637512644205873574663745002544561797417525199053346824733589503⟩, ⟨114, 36893488147419103232, 8148143905337944345073782753637512644205873574663745002544561797417525199053346824733589503⟩, ⟨123, 633825904577024508062938955776, 8148143905337944345073782753637512644205873574663745002544561797417525199053346824733589503⟩, ⟨134, 633825300151008188895770705920, 8148143905337944345073782753637512644205873574663745002544561797417525199053346824733589503⟩]⟩,
    ⟨158, 8148143905337944345073782753637512644205873574663745002544561797417525199053346824733589503, 1606938044258990275541962092341162602522202993782792835301375, 8148143905337944345073782753637512644205873574663745002544561797417525199053346824733589503, 2037035976334486086268445688409378161051468393665936250636140449354381299763336706049179119, []⟩,
    ⟨160, 8148143905337944345073782753637512644205873574663745002544561797417525199053346824733589503, 2658455991569831745807614120560689152, 1024, 2037035976334486086268445688409378161051468393665936250636140449354381299763336706183397375, [⟨121, 0, 1024⟩]⟩,
    ⟨176, 8148143905337944345073782753637512644205873574663745002544561797417525199053346824733589503, 5316911983139663491615228241121378304, 1606938044258990275541962092341162602522202993782792835301376, 2037035976334486086268445688409378161051468393665936250636140449354381299763336706183397375, []⟩,
    ⟨185, 8148143905337944345073782753637512644205873574663745002544561797417525199053346824733589503, 302231454903657293676544, 8148143905337944345073782753637512644205873574663745002544561797417525199053346824733589503, 2037035976334486086268445688409378161051468393665936229036185517849498365076471976493579759, []⟩,
    ⟨192, 8148143905337944345073782753637512644205873574663745002544561797417525199053346824733589503, 43556142965880123323311949751266331066368, 421249166674228746791672110734681729275580381602196445017243910144, 2037035976334486086268445688409378161051468393665936250636140449354381299763336706183397375, []⟩,
    ⟨201, 8148143905337944345073782753637512644205873574663745002544561797417525199053346824733589503, 44601490397061246283071436545296723011960832, 862718293348820473429344482784628181556388621521298319395315527974912, 2037035976334486086268445688409378161051468393665936250636140449354381299763336706183397375, []⟩,
    ⟨203, 8148143905337944345073782753637512644205873574663745002544561797417525199053346824733589503, 89202980794122492566142873090593446023921664, 862718293348820473429344482784628181556388621521298319395315527974912, 2037035976334486086268445688409378161051468393665936250636140449354381299763336706183397375, []⟩]
  | .PivotConfig => [
    ⟨71, 8148143905337944345073782753637512644205873574663745002544561797417525199053346824733589503, 4722366482869645213696, 8148143905337944345073782753637512644205873574663745002544561797417525199053346824733589503, 2037035976334486086268445688409378161051468393665936250636140449354381299763336706183397375, []⟩,
    ⟨90, 8148143905337944345073782753637512644205873574663745002544561797417525199053346824733589503, 37778931862957161709568, 8148143905337944345073782753637512644205873574663745002544561797417525199053346824733589503, 2037035976334486086268445688409378161051468393665936250636140449354381299763336706183397375, []⟩,
    ⟨159, 8148143905337944345073782753637512644205873574663745002544561797417525199053346824733589503, 2658455991569831745807614120560689152, 8148143905337944345073782753637512644205873574663745002544561797417525199053346824733589503, 2037035976334486086268445688409378161051468393665936250636140449354381299763336706183397375, []⟩]
  | .PivotOperator => [
    ⟨4, 8148143905337944345073782753637512644205873574663745002544561797417525199053346824733589503, 302231454903657293676544, 8148143905337944345073782753637512644205873574663745002544561797417525199053346824733589503, 2037035976334486086268445688409378161051468393665936229036185517849498365076471976493579759, []⟩,
    ⟨9, 8148143905337944345073782753637512644205873574663745002544561797417525199053346824733589503, 1180591620717411303424, 536870912, 2037035976334486086268445688409378161051468393665936250636140449354381299763336706183397375, [⟨70, 0, 536870912⟩]⟩,
    ⟨29, 8148143905337944345073782753637512644205873574663745002544561797417525199053346824733589503, 81129638414606681695789005144064, 8148143905337944345073782753637512644205873574663745002544561797417525199053346824733589503, 2037035976334486086268445688409378161051468393665936250636140449354381299763336706183397375, []⟩]
  | .PivotPipeOperator => [
    ⟨4, 8148143905337944345073782753637512644205873574663745002544561797417525199053346824733589503, 302231454903657293676544, 8148143905337944345073782753637512644205873574663745002544561797417525199053346824733589503, 2037035976334486086268445688409378161051468393665936229036185517849498365076471976493579759, []⟩,
    ⟨9, 8148143905337944345073782753637512644205873574663745002544561797417525199053346824733589503, 1180591620717411303424, 536870912, 2037035976334486086268445688409378161051468393665936250636140449354381299763336706183397375, [⟨70, 0, 536870912⟩]⟩,
    ⟨29, 8148143905337944345073782753637512644205873574663745002544561797417525199053346824733589503, 81129638414606681695789005144064, 8148143905337944345073782753637512644205873574663745002544561797417525199053346824733589503, 2037035976334486086268445688409378161051468393665936250636140449354381299763336706183397375, []⟩,
    ⟨99, 8148143905337944345073782753637512644205873574663745002544561797417525199053346824733589503, 0, 0, 2037035976334486086268445688409378161051466932164298557850900393226202185418844888792825327, []⟩]
  | .RaiseStatement => [
    ⟨21, 8148143905337944345073782753637512644205873574663745002544561797417525199053346824733589503, 2658455991569831745807614120560689152, 8148143905337944345073782753637512644205873574663745002544561797417525199053346824733589503, 2037035976334486086268445688409378161051468393665936250636140449354381299763336706183397375, []⟩,
    ⟨103, 8148143905337944345073782753637512644205873574663745002544561797417525199053346824733589503, 302231454903657293676544, 8148143905337944345073782753637512644205873574663745002544561797417525199053346824733589503, 2037035976334486086268445688409378161051468393665936229036185517849498365076471976493579759, []⟩,
    ⟨160, 8148143905337944345073782753637512644205873574663745002544561797417525199053346824733589503, 2658455991569831745807614120560689152, 1024, 2037035976334486086268445688409378161051468393665936250636140449354381299763336706183397375, [⟨121, 0, 1024⟩]⟩,
    ⟨185, 8148143905337944345073782753637512644205873574663745002544561797417525199053346824733589503, 302231454903657293676544, 8148143905337944345073782753637512644205873574663745002544561797417525199053346824733589503, 2037035976334486086268445688409378161051468393665936229036185517849498365076471976493579759, []⟩,
    ⟨194, 8148143905337944345073782753637512644205873574663745002544561797417525199053346824733589503, 4722366482869645213696, 3369993333393829974333376885877453834204643052817571560137951281152, 2037035976334486086268445688409378161051468393665936250636140449354381299763336706183397375, [⟨72, 0, 3369993333393829974333376885877453834204643052817571560137951281152⟩]⟩]
  | .RangeLiteral => [
    ⟨4, 8148143905337944345073782753637512644205873574663745002544561797417525199053346824733589503, 1606938044258990275541962092341162602522202993782792835301375, 8148143905337944345073782753637512644205873574663745002544561797417525199053346824733589503, 2037035976334486086268445688409378161051468393665936229036185517849498365076471976493579759, []⟩,
    ⟨9, 8148143905337944345073782753637512644205873574663745002544561797417525199053346824733589503, 1180591620717411303424, 536870912, 2037035976334486086268445688409378161051468393665936250636140449354381299763336706183397375, [⟨70, 0, 536870912⟩]⟩,
    ⟨27, 8148143905337944345073782753637512644205873574663745002544561797417525199053346824733589503, 2658455991569831745807614120560689152, 64, 2037035976334486086268445688409378161051468393665936250636140449354381299763336706183397375, [⟨121, 0, 64⟩]⟩,
    ⟨118, 8148143905337944345073782753637512644205873574663745002544561797417525199053346824733589503, 1180591620717411303424, 8148143905337944345073782753637512644205873574663745002544561797417525199053346824733589503, 2037035976334486086268445688409378161051468393665936250636140449354381299763336706183397375, []⟩,
    ⟨124, 8148143905337944345073782753637512644205873574663745002544561797417525199053346824733589503, 1180591620717411303424, 4722366482870718955520, 2037035976334486086268445688409378161051468393665936250636140449354381299763336706183397375, [⟨70, 0, 4722366482870718955520⟩]⟩,
    ⟨158, 8148143905337944345073782753637512644199887263957237624191599504342719303804836125037559807, 1606938044258990275541962092341162602522202993782792835301375, 8148143905337944345073782753637512644205873574663745002544561797417525199053346824733589503, 2037035976334486086268445688409378161051468393665936250636140449354381299763336706049179119, []⟩,
    ⟨158, 5986310706507378352962293074805895248510699696029696, 1606938044258990275541962092341162602522202993782792835301375, 8148143905337944345073782753637512644205873574663745002544561797417525199053346824733589503, 2037035976334486086268445688409378161051468393665936250636140449354381299763336706049179119, [⟨59, 3213876088517980551083924184682325205044405987565585670602752, 8148143905337944345073782753637512644205873574663745002544561797417525199053346824733589503⟩]⟩,
    ⟨190, 8148143905337944345073782753637512644205873574663745002544561797417525199053346824733589503, 680564733841876926926749214863536422912, 8148143905337944345073782753637512644205873574663745002544561797417525199053346824733589503, 2037035976334486086268445688409378161051468393665936250636140449354381299763336706183397375, []⟩]
  | .RenameColumnClause => [
    ⟨22, 8148143905337944345073782753637512644205873574663745002544561797417525199053346824733589503, 1180591620717411303424, 8148143905337944345073782753637512644205873574663745002544561797417525199053346824733589503, 2037035976334486086268445688409378161051468393665936250636140449354381299763336706183397375, []⟩,
    ⟨27, 8148143905337944345073782753637512644205873574663745002544561797417525199053346824733589503, 2658455991569831745807614120560689152, 64, 2037035976334486086268445688409378161051468393665936250636140449354381299763336706183397375, [⟨121, 0, 64⟩]⟩,
    ⟨84, 8148143905337944345073782753637512644205873574663745002544561797417525199053346824733589503, 39614383488587213191554007040, 8148143905337944345073782753637512644205873574663745002544561797417525199053346824733589503, 2037035976334486086268445688409378161051468393665936229036185517849498365076471976493579759, []⟩,
    ⟨86, 8148143905337944345073782753637512644205873574663745002544561797417525199053346824733589503, 2361183241434822606848, 162259276829213363391578010288128, 2037035976334486086268445688409378161051468393665936250636140449354381299763336706183397375, [⟨71, 41538374868278621028243970633760768, 162259276829213363391578010288128⟩]⟩,
    ⟨181, 8148143905337944345073782753637512644205873574663745002544561797417525199053346824733589503, 4722366482869645213696, 8148143905337944345073782753637512644205873574663745002544561797417525199053346824733589503, 2037035976334486086268445688409378161051468393665936250636140449354381299763336706183397375, []⟩]
  | .RepeatStatement => [
    ⟨21, 8148143905337944345073782753637512644205873574663745002544561797417525199053346824733589503, 2658455991569831745807614120560689152, 8148143905337944345073782753637512644205873574663745002544561797417525199053346824733589503, 2037035976334486086268445688409378161051468393665936250636140449354381299763336706183397375, []⟩,
    ⟨59, 8148143905337944345073782753637512644205873574663745002544561797417525199053346824733589503, 1180591620717411303424, 8148143905337944345073782753637512644205873574663745002544561797417525199053346824733589503, 2037035976334486086268445688409378161051468393665936250636140449354381299763336706183397375, []⟩,
    ⟨103, 8148143905337944345073782753637512644205873574663745002544561797417525199053346824733589503, 302231454903657293676544, 8148143905337944345073782753637512644205873574663745002544561797417525199053346824733589503, 2037035976334486086268445688409378161051468393665936229036185517849498365076471976493579759, []⟩,
    ⟨160, 8148143905337944345073782753637512644205873574663745002544561797417525199053346824733589503, 2658455991569831745807614120560689152, 1024, 2037035976334486086268445688409378161051468393665936250636140449354381299763336706183397375, [⟨121, 0, 1024⟩]⟩,
    ⟨168, 8148143905337944345073782753637512644205873574663745002544561797417525199053346824733589503, 1606938044258990275541962092341162602522202993782792835301375, 8148143905337944345073782753637512644205873574663745002544561797417525199053346824733589503, 2037035976334486086268445688409378161051468393665935888753818596911034901701864544725368815, [⟨118, 0, 3064991081731777716716694054300618367237478244367204352⟩]⟩,
    ⟨185, 8148143905337944345073782753637512644205873574663745002544561797417525199053346824733589503, 302231454903657293676544, 8148143905337944345073782753637512644205873574663745002544561797417525199053346824733589503, 2037035976334486086268445688409378161051468393665936229036185517849498365076471976493579759, []⟩,
    ⟨193, 8148143905337944345073782753637512644205873574663745002544561797417525199053346824733589503, 4722366482869645213696, 8148143905337944345073782753637512644205873574663745002544561797417525199053346824733589503, 2037035976334486086268445688409378161051468393665936250636140449354381299763336706183397375, []⟩]
  | .RevokeStatement => [
    ⟨21, 8148143905337944345073782753637512644205873574663745002544561797417525199053346824733589503, 2658455991569831745807614120560689152, 8148143905337944345073782753637512644205873574663745002544561797417525199053346824733589503, 2037035976334486086268445688409378161051468393665936250636140449354381299763336706183397375, []⟩,
    ⟨75, 8148143905337944345073782753637512644205873574663745002544561797417525199053346824733589503, 9444732965739290427392, 8148143905337944345073782753637512644205873574663745002544561797417525199053346824733589503, 2037035976334486086268445688409378161051468393665936250636140449354381299763336706183397375, []⟩,
    ⟨84, 8148143905337944345073782753637512644205873574663745002544561797417525199053346824733589503, 39614383488587213191554007040, 8148143905337944345073782753637512644205873574663745002544561797417525199053346824733589503, 2037035976334486086268445688409378161051468393665936229036185517849498365076471976493579759, []⟩,
    ⟨103, 8148143905337944345073782753637512644205873574663745002544561797417525199053346824733589503, 302231454903657293676544, 8148143905337944345073782753637512644205873574663745002544561797417525199053346824733589503, 2037035976334486086268445688409378161051468393665936229036185517849498365076471976493579759, []⟩,
    ⟨120, 8148143905337944345073782753637512644205873574663745002544561797417525199053346824733589503, 1180591620717411303424, 8148143905337944345073782753637512644205873574663745002544561797417525199053346824733589503, 2037035976334486086268445688409378161051468393665936250636140449354381299763336706183397375, []⟩,
    ⟨151, 8148143905337944345073782753637512644205873574663745002544561797417525199053346824733589503, 1180591620717411303424, 8148143905337944345073782753637512644205873574663745002544561797417525199053346824733589503, 2037035976334486086268445688409378161051468393665936250636140449354381299763336706183397375, []⟩,
    ⟨160, 8148143905337944345073782753637512644205873574663745002544561797417525199053346824733589503, 2658455991569831745807614120560689152, 1024, 2037035976334486086268445688409378161051468393665936250636140449354381299763336706183397375, [⟨121, 0, 1024⟩]⟩,
    ⟨185, 8148143905337944345073782753637512644205873574663745002544561797417525199053346824733589503, 302231454903657293676544, 8148143905337944345073782753637512644205873574663745002544561797417525199053346824733589503, 2037035976334486086268445688409378161051468393665936229036185517849498365076471976493579759, []⟩]
  | .SelectPipeOperator => [
    ⟨99, 8148143905337944345073782753637512644205873574663745002544561797417525199053346824733589503, 3541774862152233910272, 8148143905337944345073782753637512644205873574663745002544561797417525199053346824733589503, 2037035976334486086268445688409378161051468393665936250636140449354381299763336706183397375, [⟨71, 41538374868278621028243970633760768, 8148143905337944345073782753637512644205873574663745002544561797417525199053346824733589503⟩]⟩,
    ⟨199, 8148143905337944345073782753637512644205873574663745002544561797417525199053346824733589503, 2787593149816327892691964784081045188247552, 431359146674410236714672241392314090778194310760649159697657763987456, 2037035976334486086268445688409378161051468393665936250636140449354381299763336706183397375, []⟩]
  | .SelectStatement => [
    ⟨4, 8148143905337944345073782753637512644205873574663745002544561797417525199053346824733589503, 1606938044258990275541962092341162602522202993782792835301375, 8148143905337944345073782753637512644205873574663745002544561797417525199053346824733589503, 2037035976334486086268445688409378161051468393665936229036185517849498365076471976493579759, []⟩,
    ⟨9, 8148143905337944345073782753637512644205873574663745002544561797417525199053346824733589503, 1180591620717411303424, 536870912, 2037035976334486086268445688409378161051468393665936250636140449354381299763336706183397375, [⟨70, 0, 536870912⟩]⟩,
    ⟨10, 8148143905337944345073782753637512644205873574663745002544561797417525199053346824733589503, 1180591620717411303424, 8148143905337944345073782753637512644205873574663745002544561797417525199053346824733589503, 2037035976334486086268445688409378161051468393665936250636140449354381299763336706183397375, []⟩,
    ⟨21, 8148143905337944345073782753637512644205873574663745002544561797417525199053346824733589503, 2658455991569831745807614120560689152, 8148143905337944345073782753637512644205873574663745002544561797417525199053346824733589503, 2037035976334486086268445688409378161051468393665936250636140449354381299763336706183397375, []⟩,
    ⟨27, 8148143905337944345073782753637512644205873574663745002544561797417525199053346824733589503, 2658455991569831745807614120560689152, 64, 2037035976334486086268445688409378161051468393665936250636140449354381299763336706183397375, [⟨121, 0, 64⟩]⟩,
    ⟨44, 8148143905337944345073782753637512644205873574663745002544561797417525199053346824733589503, 70368744177664, 862718293348820473429344482784628181556388621521298319395315527974912, 2037035976334486086268445688409378161051468393665936250636140449354381299763336706183397375, []⟩,
    ⟨46, 8148143905337944345073782753637512644205873574663745002544561797417525199053346824733589503, 1180591620717411303424, 18889465931478597632000, 2037035976334486086268445688409378161051468393665936250636140449354381299763336706183397375, [⟨70, 0, 18889465931478597632000⟩]⟩,
    ⟨75, 8148143905337944345073782753637512644205873574663745002544561797417525199053346824733589503, 4722366482869645213696, 316912650057057350374175801344, 2037035976334486086268445688409378161051468393665936250636140449354381299763336706183397375, [⟨72, 0, 316912650057057350374175801344⟩]⟩,
    ⟨80, 8148143905337944345073782753637512644205873574663745002544561797417525199053346824733589503, 4611686018427387904, 5070602400912917605986812821504, 2037035976334486086268445688409378161051468393665936250636140449354381299763336706183397375, []⟩,
    ⟨82, 8148143905337944345073782753637512644205873574663745002544561797417525199053346824733589503, 4722366482869645213696, 81129638414606681695789005144064, 2037035976334486086268445688409378161051468393665936250636140449354381299763336706183397375, [⟨72, 0, 81129638414606681695789005144064⟩]⟩,
    ⟨103, 8148143905337944345073782753637512644205873574663745002544561797417525199053346824733589503, 302231454903657293676544, 8148143905337944345073782753637512644205873574663745002544561797417525199053346824733589503, 2037035976334486086268445688409378161051468393665936229036185517849498365076471976493579759, []⟩,
    ⟨106, 8148143905337944345073782753637512644205873574663745002544561797417525199053346824733589503, 154742504910672534362390528, 680564733841876926926749214863536422912, 2037035976334486086268445688409378161051468393665936250636140449354381299763336706183397375, []⟩,
    ⟨118, 8148143905337944345073782753637512644205873574663745002544561797417525199053346824733589503, 1180591620717411303424, 8148143905337944345073782753637512644205873574663745002544561797417525199053346824733589503, 2037035976334486086268445688409378161051468393665936250636140449354381299763336706183397375, []⟩,
    ⟨124, 8148143905337944345073782753637512644205873574663745002544561797417525199053346824733589503, 1180591620717411303424, 4722366482870718955520, 2037035976334486086268445688409378161051468393665936250636140449354381299763336706183397375, [⟨70, 0, 4722366482870718955520⟩]⟩,
    ⟨125, 8148143905337944345073782753637512644205873574663745002544561797417525199053346824733589503, 1427247692705959881058285969449495136382746624, 1427247692705959881058285969449495136382746624, 2037035976334486086268445688409378161051468393665936250636140449354381299763336706183397375, [⟨150, 0, 1427247692705959881058285969449495136382746624⟩]⟩,
    ⟨140, 8148143905337944345073782753637512644205873574663745002544561797417525199053346824733589503, 4722366482869645213696, 93536104789177786765035829293842113257979682750464, 2037035976334486086268445688409378161051468393665936250636140449354381299763336706183397375, [⟨72, 0, 93536104789177786765035829293842113257979682750464⟩]⟩,
    ⟨158, 8148143905337944345073782753637512644205873574663745002544561797417525199053346824733589503, 1606938044258990275541962092341162602522202993782792835301375, 8148143905337944345073782753637512644205873574663745002544561797417525199053346824733589503, 2037035976334486086268445688409378161051468393665936250636140449354381299763336706049179119, []⟩,
    ⟨160, 8148143905337944345073782753637512644205873574663745002544561797417525199053346824733589503, 2658455991569831745807614120560689152, 1024, 2037035976334486086268445688409378161051468393665936250636140449354381299763336706183397375, [⟨121, 0, 1024⟩]⟩,
    ⟨185, 8148143905337944345073782753637512644205873574663745002544561797417525199053346824733589503, 302231454903657293676544, 8148143905337944345073782753637512644205873574663745002544561797417525199053346824733589503, 2037035976334486086268445688409378161051468393665936229036185517849498365076471976493579759, []⟩,
    ⟨198, 8148143905337944345073782753637512644205873574663745002544561797417525199053346824733589503, 4722366482869645213696, 107839786668602559178668060348078522694548577690162289924414440996864, 2037035976334486086268445688409378161051468393665936250636140449354381299763336706183397375, [⟨72, 0, 107839786668602559178668060348078522694548577690162289924414440996864⟩]⟩,
    ⟨199, 8148143905337944345073782753637512644205873574663745002544561797417525199053346824733589503, 2787593149816327892691964784081045188247552, 431359146674410236714672241392314090778194310760649159697657763987456, 2037035976334486086268445688409378161051468393665936250636140449354381299763336706183397375, []⟩,
    ⟨201, 8148143905337944345073782753637512644205873574663745002544561797417525199053346824733589503, 44601490397061246283071436545296723011960832, 862718293348820473429344482784628181556388621521298319395315527974912, 2037035976334486086268445688409378161051468393665936250636140449354381299763336706183397375, []⟩]
  | .SetOperator => [
    ⟨4, 8148143905337944345073782753637512644205873574663745002544561797417525199053346824733589503, 1606938044258990275541962092341162602522202993782792835301375, 8148143905337944345073782753637512644205873574663745002544561797417525199053346824733589503, 2037035976334486086268445688409378161051468393665936229036185517849498365076471976493579759, []⟩,
    ⟨9, 8148143905337944345073782753637512644205873574663745002544561797417525199053346824733589503, 1180591620717411303424, 536870912, 2037035976334486086268445688409378161051468393665936250636140449354381299763336706183397375, [⟨70, 0, 536870912⟩]⟩,
    ⟨13, 8148143905337944345073782753637512644205873574663745002544561797417525199053346824733589503, 2361183241434822606848, 8796093022208, 2037035976334486086268445688409378161051468393665936250636140449354381299763336706183397375, [⟨71, 41538374868278621028243970633760768, 8796093022208⟩]⟩,
    ⟨21, 8148143905337944345073782753637512644205873574663745002544561797417525199053346824733589503, 2658455991569831745807614120560689152, 8148143905337944345073782753637512644205873574663745002544561797417525199053346824733589503, 2037035976334486086268445688409378161051468393665936250636140449354381299763336706183397375, []⟩,
    ⟨27, 8148143905337944345073782753637512644205873574663745002544561797417525199053346824733589503, 2658455991569831745807614120560689152, 64, 2037035976334486086268445688409378161051468393665936250636140449354381299763336706183397375, [⟨121, 0, 64⟩]⟩,
    ⟨33, 8148143905337944345073782753637512644205873574663745002544561797417525199053346824733589503, 3541774862152233910272, 200867255532373784442745261542645325315275950683601407836160, 2037035976334486086268445688409378161051468393665936250636140449354381299763336706183397375, [⟨70, 0, 576460752303423488⟩, ⟨71, 41538374868278621028243970633760768, 200867255532373784442745261542645325315275950683601407836160⟩]⟩,
    ⟨46, 8148143905337944345073782753637512644205873574663745002544561797417525199053346824733589503, 1180591620717411303424, 8148143905337944345073782753637512644205873574663745002544561797417525199053346824733589503, 2037035976334486086268445688409378161051468393665936250636140449354381299763336706183397375, []⟩,
    ⟨103, 8148143905337944345073782753637512644205873574663745002544561797417525199053346824733589503, 302231454903657293676544, 8148143905337944345073782753637512644205873574663745002544561797417525199053346824733589503, 2037035976334486086268445688409378161051468393665936229036185517849498365076471976493579759, []⟩,
    ⟨104, 8148143905337944345073782753637512644205873574663745002544561797417525199053346824733589503, 124615124604836010658684501577695232, 8148143905337944345073782753637512644205873574663745002544561797417525199053346824733589503, 2037035976334486086268445688409378161051466932164298898133267314164665648793452320561036783, []⟩,
    ⟨106, 8148143905337944345073782753637512644205873574663745002544561797417525199053346824733589503, 154742504910672534362390528, 680564733841876926926749214863536422912, 2037035976334486086268445688409378161051468393665936250636140449354381299763336706183397375, []⟩,
    ⟨112, 8148143905337944345073782753637512644205873574663745002544561797417525199053346824733589503, 3541774862152233910272, 11417981711791459291190087015212230803462291456, 2037035976334486086268445688409378161051468393665936250636140449354381299763336706183397375, [⟨70, 0, 11417981711791459291190087015212230803462291456⟩, ⟨71, 41538374868278621028243970633760768, 11417981711791459291190087015212230803462291456⟩]⟩,
    ⟨118, 8148143905337944345073782753637512644205873574663745002544561797417525199053346824733589503, 1180591620717411303424, 8148143905337944345073782753637512644205873574663745002544561797417525199053346824733589503, 2037035976334486086268445688409378161051468393665936250636140449354381299763336706183397375, []⟩,
    ⟨124, 8148143905337944345073782753637512644205873574663745002544561797417525199053346824733589503, 1180591620717411303424, 4722366482870718955520, 2037035976334486086268445688409378161051468393665936250636140449354381299763336706183397375, [⟨70, 0, 4722366482870718955520⟩]⟩,
    ⟨125, 8148143905337944345073782753637512644205873574663745002544561797417525199053346824733589503, 1427247692705959881058285969449495136382746624, 1427247692705959881058285969449495136382746624, 2037035976334486086268445688409378161051468393665936250636140449354381299763336706183397375, [⟨150, 0, 1427247692705959881058285969449495136382746624⟩]⟩,
    ⟨154, 8148143905337944345073782753637512644205873574663745002544561797417525199053346824733589503, 124655689424043314575993148383690752, 8148143905337944345073782753637512644205873574663745002544561797417525199053346824733589503, 2037035976334486086268445688409378161051468393665936229036185517849498365076471976493579759, [⟨59, 3213876088517980551083924184682325205044405987565585670602752, 8148143905337944345073782753637512644205873574663745002544561797417525199053346824733589503⟩, ⟨116, 3213876088517980551083924184682325205044405987565585670602752, 8148143905337944345073782753637512644205873574663745002544561797417525199053346824733589503⟩]⟩,
    ⟨158, 8148143905337944345073782753637512644205873574663745002544561797417525199053346824733589503, 1606938044258990275541962092341162602522202993782792835301375, 8148143905337944345073782753637512644205873574663745002544561797417525199053346824733589503, 2037035976334486086268445688409378161051468393665936250636140449354381299763336706049179119, []⟩,
    ⟨160, 8148143905337944345073782753637512644205873574663745002544561797417525199053346824733589503, 2658455991569831745807614120560689152, 1024, 2037035976334486086268445688409378161051468393665936250636140449354381299763336706183397375, [⟨121, 0, 1024⟩]⟩,
    ⟨185, 8148143905337944345073782753637512644205873574663745002544561797417525199053346824733589503, 302231454903657293676544, 8148143905337944345073782753637512644205873574663745002544561797417525199053346824733589503, 2037035976334486086268445688409378161051468393665936229036185517849498365076471976493579759, []⟩,
    ⟨201, 8148143905337944345073782753637512644205873574663745002544561797417525199053346824733589503, 44601490397061246283071436545296723011960832, 862718293348820473429344482784628181556388621521298319395315527974912, 2037035976334486086268445688409378161051468393665936250636140449354381299763336706183397375, []⟩]
  | .SetStatement => [
    ⟨21, 8148143905337944345073782753637512644205873574663745002544561797417525199053346824733589503, 2658455991569831745807614120560689152, 8148143905337944345073782753637512644205873574663745002544561797417525199053346824733589503, 2037035976334486086268445688409378161051468393665936250636140449354381299763336706183397375, []⟩,
    ⟨64, 8148143905337944345073782753637512644205873574663745002544561797417525199053346824733589503, 1606938044258990275541962092341162602522202993782792835301375, 8148143905337944345073782753637512644205873574663745002544561797417525199053346824733589503, 2037035976334486086268445688409378161051468393665936250636140449354381299763336706049179119, []⟩,
    ⟨103, 8148143905337944345073782753637512644205873574663745002544561797417525199053346824733589503, 302231454903657293676544, 8148143905337944345073782753637512644205873574663745002544561797417525199053346824733589503, 2037035976334486086268445688409378161051468393665936229036185517849498365076471976493579759, []⟩,
    ⟨160, 8148143905337944345073782753637512644205873574663745002544561797417525199053346824733589503, 2658455991569831745807614120560689152, 1024, 2037035976334486086268445688409378161051468393665936250636140449354381299763336706183397375, [⟨121, 0, 1024⟩]⟩,
    ⟨185, 8148143905337944345073782753637512644205873574663745002544561797417525199053346824733589503, 302231454903657293676544, 8148143905337944345073782753637512644205873574663745002544561797417525199053346824733589503, 2037035976334486086268445688409378161051468393665936229036185517849498365076471976493579759, []⟩]
  | .SingleTokenStatement => [
    ⟨21, 8148143905337944345073782753637512644205873574663745002544561797417525199053346824733589503, 2658455991569831745807614120560689152, 8148143905337944345073782753637512644205873574663745002544561797417525199053346824733589503, 2037035976334486086268445688409378161051468393665936250636140449354381299763336706183397375, []⟩,
    ⟨103, 8148143905337944345073782753637512644205873574663745002544561797417525199053346824733589503, 302231454903657293676544, 8148143905337944345073782753637512644205873574663745002544561797417525199053346824733589503, 2037035976334486086268445688409378161051468393665936229036185517849498365076471976493579759, []⟩,
    ⟨160, 8148143905337944345073782753637512644205873574663745002544561797417525199053346824733589503, 2658455991569831745807614120560689152, 1024, 2037035976334486086268445688409378161051468393665936250636140449354381299763336706183397375, [⟨121, 0, 1024⟩]⟩,
    ⟨185, 8148143905337944345073782753637512644205873574663745002544561797417525199053346824733589503, 302231454903657293676544, 8148143905337944345073782753637512644205873574663745002544561797417525199053346824733589503, 2037035976334486086268445688409378161051468393665936229036185517849498365076471976493579759, []⟩]
  | .StringLiteral => [
    ⟨4, 8148143905337944345073782753637512644205873574663745002544561797417525199053346824733589503, 1606938044258990275541962092341162602522202993782792835301375, 8148143905337944345073782753637512644205873574663745002544561797417525199053346824733589503, 2037035976334486086268445688409378161051468393665936229036185517849498365076471976493579759, []⟩,
    ⟨9, 8148143905337944345073782753637512644205873574663745002544561797417525199053346824733589503, 1180591620717411303424, 536870912, 2037035976334486086268445688409378161051468393665936250636140449354381299763336706183397375, [⟨70, 0, 536870912⟩]⟩,
    ⟨27, 8148143905337944345073782753637512644205873574663745002544561797417525199053346824733589503, 2658455991569831745807614120560689152, 64, 2037035976334486086268445688409378161051468393665936250636140449354381299763336706183397375, [⟨121, 0, 64⟩]⟩,
    ⟨118, 8148143905337944345073782753637512644205873574663745002544561797417525199053346824733589503, 1180591620717411303424, 8148143905337944345073782753637512644205873574663745002544561797417525199053346824733589503, 2037035976334486086268445688409378161051468393665936250636140449354381299763336706183397375, []⟩,
    ⟨124, 8148143905337944345073782753637512644205873574663745002544561797417525199053346824733589503, 1180591620717411303424, 4722366482870718955520, 2037035976334486086268445688409378161051468393665936250636140449354381299763336706183397375, [⟨70, 0, 4722366482870718955520⟩]⟩,
    ⟨154, 8148143905337944345073782753637512644205873574663745002544561797417525199053346824733589503, 1606938044258990275541962092341162602522202993782792835301375, 8148143905337944345073782753637512644205873574663745002544561797417525199053346824733589503, 2037035976334486086268445688409378161051468393665936250636140449354381299763336706049179119, []⟩,
    ⟨158, 8148143905337944345073782753637512644205873574663745002544561797417525199053346824733589503, 1606938044258990275541962092341162602522202993782792835301375, 8148143905337944345073782753637512644205873574663745002544561797417525199053346824733589503, 2037035976334486086268445688409378161051468393665936250636140449354381299763336706049179119, []⟩]
  | .StructLiteral => [
    ⟨4, 8148143905337944345073782753637512644205873574663745002544561797417525199053346824733589503, 1606938044258990275541962092341162602522202993782792835301375, 8148143905337944345073782753637512644205873574663745002544561797417525199053346824733589503, 2037035976334486086268445688409378161051468393665936229036185517849498365076471976493579759, []⟩,
    ⟨9, 8148143905337944345073782753637512644205873574663745002544561797417525199053346824733589503, 1180591620717411303424, 536870912, 2037035976334486086268445688409378161051468393665936250636140449354381299763336706183397375, [⟨70, 0, 536870912⟩]⟩,
    ⟨27, 8148143905337944345073782753637512644205873574663745002544561797417525199053346824733589503, 2658455991569831745807614120560689152, 64, 2037035976334486086268445688409378161051468393665936250636140449354381299763336706183397375, [⟨121, 0, 64⟩]⟩,
    ⟨118, 8148143905337944345073782753637512644205873574663745002544561797417525199053346824733589503, 1180591620717411303424, 8148143905337944345073782753637512644205873574663745002544561797417525199053346824733589503, 2037035976334486086268445688409378161051468393665936250636140449354381299763336706183397375, []⟩,
    ⟨124, 8148143905337944345073782753637512644205873574663745002544561797417525199053346824733589503, 1180591620717411303424, 4722366482870718955520, 2037035976334486086268445688409378161051468393665936250636140449354381299763336706183397375, [⟨70, 0, 4722366482870718955520⟩]⟩,
    ⟨158, 8148143905337944345073782753637512644199887263957237624191599504342719303804836125037559807, 1606938044258990275541962092341162602522202993782792835301375, 8148143905337944345073782753637512644205873574663745002544561797417525199053346824733589503, 2037035976334486086268445688409378161051468393665936250636140449354381299763336706049179119, []⟩,
    ⟨158, 5986310706507378352962293074805895248510699696029696, 1606938044258990275541962092341162602522202993782792835301375, 8148143905337944345073782753637512644205873574663745002544561797417525199053346824733589503, 2037035976334486086268445688409378161051468393665936250636140449354381299763336706049179119, [⟨59, 3213876088517980551083924184682325205044405987565585670602752, 8148143905337944345073782753637512644205873574663745002544561797417525199053346824733589503⟩]⟩,
    ⟨159, 4, 2658455991569831745807614120560689152, 8148143905337944345073782753637512644205873574663745002544561797417525199053346824733589503, 2037035976334486086268445688409378161051468393665936250636140449354381299763336706183397375, []⟩,
    ⟨159, 8148143905337944345073782753637512644205873574663745002544561797417525199053346824733589499, 2658455991569831745807614120560689152, 8, 2037035976334486086268445688409378161051468393665936250636140449354381299763336706183397375, [⟨121, 0, 8⟩]⟩,
    ⟨190, 8148143905337944345073782753637512644205873574663745002544561797417525199053346824733589503, 680564733841876926926749214863536422912, 8148143905337944345073782753637512644205873574663745002544561797417525199053346824733589503, 2037035976334486086268445688409378161051468393665936250636140449354381299763336706183397375, []⟩]
  | .TableSampleClause => [
    ⟨79, 8148143905337944345073782753637512644205873574663745002544561797417525199053346824733589503, 21267647932558653966460912964485513216, 8148143905337944345073782753637512644205873574663745002544561797417525199053346824733589503, 2037035976334486086268445688409378161051468393665936250636140449354381299763336706183397375, []⟩,
    ⟨171, 8148143905337944345073782753637512644205873574663745002544561797417525199053346824733589503, 1180591620717411303424, 8148143905337944345073782753637512644205873574663745002544561797417525199053346824733589503, 2037035976334486086268445688409378161051468393665936250636140449354381299763336706183397375, []⟩]
  | .TableSamplePipeOperator => [
    ⟨79, 8148143905337944345073782753637512644205873574663745002544561797417525199053346824733589503, 21267647932558653966460912964485513216, 8148143905337944345073782753637512644205873574663745002544561797417525199053346824733589503, 2037035976334486086268445688409378161051468393665936250636140449354381299763336706183397375, []⟩,
    ⟨99, 8148143905337944345073782753637512644205873574663745002544561797417525199053346824733589503, 1180591620717411303424, 8148143905337944345073782753637512644205873574663745002544561797417525199053346824733589503, 2037035976334486086268445688409378161051468393665936250636140449354381299763336706183397375, []⟩]
  | .TableSampleRatio => [
    ⟨64, 8148143905337944345073782753637512644205873574663745002544561797417525199053346824733589503, 1606938044258990275541962092341162602522202993782792835301375, 8148143905337944345073782753637512644205873574663745002544561797417525199053346824733589503, 2037035976334486086268445688409378161051468393665936250636140449354381299763336706049179119, []⟩,
    ⟨136, 8148143905337944345073782753637512644205873574663745002544561797417525199053346824733589503, 1180591620717411303424, 8148143905337944345073782753637512644205873574663745002544561797417525199053346824733589503, 2037035976334486086268445688409378161051468393665936250636140449354381299763336706183397375, []⟩,
    ⟨159, 8148143905337944345073782753637512644205873574663745002544561797417525199053346824733589503, 2658455991569831745807614120560689152, 8148143905337944345073782753637512644205873574663745002544561797417525199053346824733589503, 2037035976334486086268445688409378161051468393665936250636140449354381299763336706183397375, []⟩]
  | .Template => [
    ⟨4, 8148143905337944345073782753637512644205873574663745002544561797417525199053346824733589503, 1606938044258990275541962092341162602522202993782792835301375, 8148143905337944345073782753637512644205873574663745002544561797417525199053346824733589503, 2037035976334486086268445688409378161051468393665936229036185517849498365076471976493579759, []⟩,
    ⟨9, 8148143905337944345073782753637512644205873574663745002544561797417525199053346824733589503, 1180591620717411303424, 536870912, 2037035976334486086268445688409378161051468393665936250636140449354381299763336706183397375, [⟨70, 0, 536870912⟩]⟩,
    ⟨27, 8148143905337944345073782753637512644205873574663745002544561797417525199053346824733589503, 2658455991569831745807614120560689152, 64, 2037035976334486086268445688409378161051468393665936250636140449354381299763336706183397375, [⟨121, 0, 64⟩]⟩,
    ⟨118, 8148143905337944345073782753637512644205873574663745002544561797417525199053346824733589503, 1180591620717411303424, 8148143905337944345073782753637512644205873574663745002544561797417525199053346824733589503, 2037035976334486086268445688409378161051468393665936250636140449354381299763336706183397375, []⟩,
    ⟨124, 8148143905337944345073782753637512644205873574663745002544561797417525199053346824733589503, 1180591620717411303424, 4722366482870718955520, 2037035976334486086268445688409378161051468393665936250636140449354381299763336706183397375, [⟨70, 0, 4722366482870718955520⟩]⟩,
    ⟨154, 8148143905337944345073782753637512644205873574663745002544561797417525199053346824733589503, 1606938044258990275541962092341162602522202993782792835301375, 8148143905337944345073782753637512644205873574663745002544561797417525199053346824733589503, 2037035976334486086268445688409378161051468393665936250636140449354381299763336706049179119, []⟩,
    ⟨158, 8148143905337944345073782753637512644205873574663745002544561797417525199053346824733589503, 1606938044258990275541962092341162602522202993782792835301375, 8148143905337944345073782753637512644205873574663745002544561797417525199053346824733589503, 2037035976334486086268445688409378161051468393665936250636140449354381299763336706049179119, []⟩,
    ⟨72, 8148143905337944345073782753637512644205873574663745002544561797417525199053346824733589503, 0, 0, 2037035976334486086268445688409378161051466932164298557850900393226202185418844888792825327, []⟩,
    ⟨107, 8148143905337944345073782753637512644205873574663745002544561797417525199053346824733589503, 0, 0, 2037035976334486086268445688409378161051466932164298557850900393226202185418844888792825327, []⟩,
    ⟨137, 8148143905337944345073782753637512644205873574663745002544561797417525199053346824733589503, 0, 0, 2037035976334486086268445688409378161051466932164298557850900393226202185418844888792825327, []⟩,
    ⟨176, 8148143905337944345073782753637512644205873574663745002544561797417525199053346824733589503, 0, 0, 2037035976334486086268445688409378161051466932164298557850900393226202185418844888792825327, []⟩,
    ⟨192, 8148143905337944345073782753637512644205873574663745002544561797417525199053346824733589503, 0, 0, 2037035976334486086268445688409378161051466932164298557850900393226202185418844888792825327, []⟩,
    ⟨203, 8148143905337944345073782753637512644205873574663745002544561797417525199053346824733589503, 0, 0, 2037035976334486086268445688409378161051466932164298557850900393226202185418844888792825327, []⟩]
  | .TrainingDataCustomHolidayClause => [
    ⟨34, 8148143905337944345073782753637512644205873574663745002544561797417525199053346824733589503, 713623846352979940529142984724747568191373312, 8148143905337944345073782753637512644205873574663745002544561797417525199053346824733589503, 2037035976334486086268445688409378161051468393665936250636140449354381299763336706183397375, []⟩,
    ⟨159, 8148143905337944345073782753637512644205873574663745002544561797417525199053346824733589503, 2658455991569831745807614120560689152, 8148143905337944345073782753637512644205873574663745002544561797417525199053346824733589503, 2037035976334486086268445688409378161051468393665936250636140449354381299763336706183397375, []⟩,
    ⟨186, 8148143905337944345073782753637512644205873574663745002544561797417525199053346824733589503, 713623846352979940529142984724747568191373312, 8148143905337944345073782753637512644205873574663745002544561797417525199053346824733589503, 2037035976334486086268445688409378161051468393665936250636140449354381299763336706183397375, []⟩]
  | .TransactionStatement => [
    ⟨21, 8148143905337944345073782753637512644205873574663745002544561797417525199053346824733589503, 2658455991569831745807614120560689152, 8148143905337944345073782753637512644205873574663745002544561797417525199053346824733589503, 2037035976334486086268445688409378161051468393665936250636140449354381299763336706183397375, []⟩,
    ⟨103, 8148143905337944345073782753637512644205873574663745002544561797417525199053346824733589503, 302231454903657293676544, 8148143905337944345073782753637512644205873574663745002544561797417525199053346824733589503, 2037035976334486086268445688409378161051468393665936229036185517849498365076471976493579759, []⟩,
    ⟨160, 8148143905337944345073782753637512644205873574663745002544561797417525199053346824733589503, 2658455991569831745807614120560689152, 1024, 2037035976334486086268445688409378161051468393665936250636140449354381299763336706183397375, [⟨121, 0, 1024⟩]⟩,
    ⟨185, 8148143905337944345073782753637512644205873574663745002544561797417525199053346824733589503, 302231454903657293676544, 8148143905337944345073782753637512644205873574663745002544561797417525199053346824733589503, 2037035976334486086268445688409378161051468393665936229036185517849498365076471976493579759, []⟩,
    ⟨188, 8148143905337944345073782753637512644205873574663745002544561797417525199053346824733589503, 1180591620717411303424, 411376139330301510538742295639337626245683966408394965837152256, 2037035976334486086268445688409378161051468393665936250636140449354381299763336706183397375, [⟨70, 0, 411376139330301510538742295639337626245683966408394965837152256⟩]⟩]
  | .TruncateStatement => [
    ⟨21, 8148143905337944345073782753637512644205873574663745002544561797417525199053346824733589503, 2658455991569831745807614120560689152, 8148143905337944345073782753637512644205873574663745002544561797417525199053346824733589503, 2037035976334486086268445688409378161051468393665936250636140449354381299763336706183397375, []⟩,
    ⟨103, 8148143905337944345073782753637512644205873574663745002544561797417525199053346824733589503, 302231454903657293676544, 8148143905337944345073782753637512644205873574663745002544561797417525199053346824733589503, 2037035976334486086268445688409378161051468393665936229036185517849498365076471976493579759, []⟩,
    ⟨160, 8148143905337944345073782753637512644205873574663745002544561797417525199053346824733589503, 2658455991569831745807614120560689152, 1024, 2037035976334486086268445688409378161051468393665936250636140449354381299763336706183397375, [⟨121, 0, 1024⟩]⟩,
    ⟨173, 8148143905337944345073782753637512644205873574663745002544561797417525199053346824733589503, 1180591620717411303424, 8148143905337944345073782753637512644205873574663745002544561797417525199053346824733589503, 2037035976334486086268445688409378161051468393665936250636140449354381299763336706183397375, []⟩,
    ⟨174, 8148143905337944345073782753637512644205873574663745002544561797417525199053346824733589503, 39614383488587213191554007040, 8148143905337944345073782753637512644205873574663745002544561797417525199053346824733589503, 2037035976334486086268445688409378161051468393665936229036185517849498365076471976493579759, []⟩,
    ⟨185, 8148143905337944345073782753637512644205873574663745002544561797417525199053346824733589503, 302231454903657293676544, 8148143905337944345073782753637512644205873574663745002544561797417525199053346824733589503, 2037035976334486086268445688409378161051468393665936229036185517849498365076471976493579759, []⟩]
  | .Type => [
    ⟨3, 8148143905337944345073782753637512644205873574663745002544561797417525199053346824733589503, 2361183241434822606848, 2787593149816327892691964784081045188247552, 2037035976334486086268445688409378161051468393665936250636140449354381299763336706183397375, [⟨71, 41538374868278621028243970633760768, 2787593149816327892691964784081045188247552⟩]⟩,
    ⟨20, 8148143905337944345073782753637512644205873574663745002544561797417525199053346824733589503, 4722366482869645213696, 2251799813685248, 2037035976334486086268445688409378161051468393665936250636140449354381299763336706183397375, [⟨72, 0, 2251799813685248⟩]⟩,
    ⟨32, 8148143905337944345073782753637512644205873574663745002544561797417525199053346824733589503, 4722366482869645213696, 36028797018963968, 2037035976334486086268445688409378161051468393665936250636140449354381299763336706183397375, [⟨72, 0, 36028797018963968⟩]⟩,
    ⟨39, 8148143905337944345073782753637512644205873574663745002544561797417525199053346824733589503, 4722366482869645213696, 590295810358705651712, 2037035976334486086268445688409378161051468393665936250636140449354381299763336706183397375, [⟨72, 0, 590295810358705651712⟩]⟩,
    ⟨61, 8148143905337944345073782753637512644205873574663745002544561797417525199053346824733589503, 3541774862152233910272, 2787593149816327893296427693888359775600640, 2037035976334486086268445688409378161051468393665936250636140449354381299763336706183397375, [⟨70, 0, 604462909807314587353088⟩, ⟨71, 41538374868278621028243970633760768, 2787593149816327892691964784081045188247552⟩]⟩,
    ⟨117, 8148143905337944345073782753637512644205873574663745002544561797417525199053346824733589503, 1180591620717411303424, 8148143905337944345073782753637512644205873574663745002544561797417525199053346824733589503, 2037035976334486086268445688409378161051468393665936250636140449354381299763336706183397375, []⟩,
    ⟨122, 8148143905337944345073782753637512644205873574663745002544561797417525199053346824733589503, 37778931862957161709568, 356811923176489970264571492362373784095686656, 2037035976334486086268445688409378161051468393665936250636140449354381299763336706183397375, [⟨75, 0, 356811923176489970264571492362373784095686656⟩]⟩,
    ⟨131, 8148143905337944345073782753637512644205873574663745002544561797417525199053346824733589503, 36893488147419103232, 8148143905337944345073782753637512644205873574663745002544561797417525199053346824733589503, 2037035976334486086268445688409378161051468393665936250636140449354381299763336706049179135, []⟩,
    ⟨138, 8148143905337944345073782753637512644205873574663745002544561797417525199053346824733589503, 2361183241434822606848, 5846006549323611672814739330865132078623730171904, 2037035976334486086268445688409378161051468393665936250636140449354381299763336706183397375, [⟨71, 41538374868278621028243970633760768, 5846006549323611672814739330865132078623730171904⟩]⟩,
    ⟨146, 8148143905337944345073782753637512644205873574663745002544561797417525199053346824733589503, 4722366482869645213696, 5986310706507378352962293074805895248510699696029696, 2037035976334486086268445688409378161051468393665936250636140449354381299763336706183397375, [⟨72, 0, 5986310706507378352962293074805895248510699696029696⟩]⟩,
    ⟨190, 8148143905337944345073782753637512644205873574663745002544561797417525199053346824733589503, 1180591620717411303424, 8148143905337944345073782753637512644205873574663745002544561797417525199053346824733589503, 2037035976334486086268445688409378161051468393665936250636140449354381299763336706183397375, []⟩,
    ⟨191, 748288838313422294120286634350736906063837730439168, 295147905179352825856, 2048, 2037035976334486086268445688409378161051468393665936250636140449354381299763336706183397375, []⟩,
    ⟨191, 1205203533194242706656471569255871951891652245337094626476032, 590295810358705651712, 2048, 2037035976334486086268445688409378161051468393665936250636140449354381299763336706183397375, [⟨69, 274877906944, 2048⟩]⟩]
  | .TypeDeclaration => [
    ⟨27, 8148143905337944345073782753637512644205873574663745002544561797417525199053346824733589503, 2658455991569831745807614120560689152, 64, 2037035976334486086268445688409378161051468393665936250636140449354381299763336706183397375, [⟨121, 0, 64⟩]⟩,
    ⟨91, 8148143905337944345073782753637512644205873574663745002544561797417525199053346824733589503, 1180591620717411303424, 5708990770829680858198995558880077353901359104, 2037035976334486086268445688409378161051468393665936250636140449354381299763336706183397375, [⟨70, 0, 5708990770829680858198995558880077353901359104⟩]⟩,
    ⟨190, 8148143905337944345073782753637512644205873574663745002544561797417525199053346824733589503, 680564733841876926926749214863536422912, 8148143905337944345073782753637512644205873574663745002544561797417525199053346824733589503, 2037035976334486086268445688409378161051468393665936250636140449354381299763336706183397375, []⟩]
  | .UnaryOperator => [
    ⟨4, 8148143905337944345073782753637512644205873574663745002544561797417525199053346824733589503, 1606938044258990275541962092341162602522202993782792835301375, 8148143905337944345073782753637512644205873574663745002544561797417525199053346824733589503, 2037035976334486086268445688409378161051468393665936229036185517849498365076471976493579759, []⟩,
    ⟨9, 8148143905337944345073782753637512644205873574663745002544561797417525199053346824733589503, 1180591620717411303424, 536870912, 2037035976334486086268445688409378161051468393665936250636140449354381299763336706183397375, [⟨70, 0, 536870912⟩]⟩,
    ⟨27, 8148143905337944345073782753637512644205873574663745002544561797417525199053346824733589503, 2658455991569831745807614120560689152, 64, 2037035976334486086268445688409378161051468393665936250636140449354381299763336706183397375, [⟨121, 0, 64⟩]⟩,
    ⟨118, 8148143905337944345073782753637512644205873574663745002544561797417525199053346824733589503, 1180591620717411303424, 8148143905337944345073782753637512644205873574663745002544561797417525199053346824733589503, 2037035976334486086268445688409378161051468393665936250636140449354381299763336706183397375, []⟩,
    ⟨124, 8148143905337944345073782753637512644205873574663745002544561797417525199053346824733589503, 1180591620717411303424, 4722366482870718955520, 2037035976334486086268445688409378161051468393665936250636140449354381299763336706183397375, [⟨70, 0, 4722366482870718955520⟩]⟩,
    ⟨154, 441711766271729108521939558323037350557820366671319328389382857912484000, 1606938044258990275541962092341162602522202993782792835301375, 8148143905337944345073782753637512644205873574663745002544561797417525199053346824733589503, 2037035976334486086268445688409378161051468393665936250636140449354381299763336706049179119, []⟩,
    ⟨154, 803469022129495137945205618034101794554349295896461741916160, 39643397709410885796373200897, 8148143905337944345073782753637512644205873574663745002544561797417525199053346824733589503, 2037035976334486086268445688409378161051468393665936250636140449354381299763336706049179119, []⟩,
    ⟨158, 8148143905337944345073782753637512644205873574663745002544561797417525199053346824733589503, 1606938044258990275541962092341162602522202993782792835301375, 8148143905337944345073782753637512644205873574663745002544561797417525199053346824733589503, 2037035976334486086268445688409378161051468393665936250636140449354381299763336706049179119, []⟩]
  | .Unknown => [
    ⟨4, 8148143905337944345073782753637512644205873574663745002544561797417525199053346824733589503, 1606938044258990275541962092341162602522202993782792835301375, 8148143905337944345073782753637512644205873574663745002544561797417525199053346824733589503, 2037035976334486086268445688409378161051468393665936229036185517849498365076471976493579759, []⟩,
    ⟨9, 8148143905337944345073782753637512644205873574663745002544561797417525199053346824733589503, 1180591620717411303424, 536870912, 2037035976334486086268445688409378161051468393665936250636140449354381299763336706183397375, [⟨70, 0, 536870912⟩]⟩,
    ⟨27, 8148143905337944345073782753637512644205873574663745002544561797417525199053346824733589503, 2658455991569831745807614120560689152, 64, 2037035976334486086268445688409378161051468393665936250636140449354381299763336706183397375, [⟨121, 0, 64⟩]⟩,
    ⟨118, 8148143905337944345073782753637512644205873574663745002544561797417525199053346824733589503, 1180591620717411303424, 8148143905337944345073782753637512644205873574663745002544561797417525199053346824733589503, 2037035976334486086268445688409378161051468393665936250636140449354381299763336706183397375, []⟩,
    ⟨124, 8148143905337944345073782753637512644205873574663745002544561797417525199053346824733589503, 1180591620717411303424, 4722366482870718955520, 2037035976334486086268445688409378161051468393665936250636140449354381299763336706183397375, [⟨70, 0, 4722366482870718955520⟩]⟩,
    ⟨154, 8148143905337944345073782753637512644205873574663745002544561797417525199053346824733589503, 1606938044258990275541962092341162602522202993782792835301375, 8148143905337944345073782753637512644205873574663745002544561797417525199053346824733589503, 2037035976334486086268445688409378161051468393665936250636140449354381299763336706049179119, []⟩,
    ⟨158, 8148143905337944345073782753637512644205873574663745002544561797417525199053346824733589503, 1606938044258990275541962092341162602522202993782792835301375, 8148143905337944345073782753637512644205873574663745002544561797417525199053346824733589503, 2037035976334486086268445688409378161051468393665936250636140449354381299763336706049179119, []⟩]
  | .UndropStatement => [
    ⟨21, 8148143905337944345073782753637512644205873574663745002544561797417525199053346824733589503, 2658455991569831745807614120560689152, 8148143905337944345073782753637512644205873574663745002544561797417525199053346824733589503, 2037035976334486086268445688409378161051468393665936250636140449354381299763336706183397375, []⟩,
    ⟨84, 8148143905337944345073782753637512644205873574663745002544561797417525199053346824733589503, 39614383488587213191554007040, 8148143905337944345073782753637512644205873574663745002544561797417525199053346824733589503, 2037035976334486086268445688409378161051468393665936229036185517849498365076471976493579759, []⟩,
    ⟨87, 8148143905337944345073782753637512644205873574663745002544561797417525199053346824733589503, 1180591620717411303424, 8148143905337944345073782753637512644205873574663745002544561797417525199053346824733589503, 2037035976334486086268445688409378161051468393665936250636140449354381299763336706183397375, []⟩,
    ⟨103, 8148143905337944345073782753637512644205873574663745002544561797417525199053346824733589503, 302231454903657293676544, 8148143905337944345073782753637512644205873574663745002544561797417525199053346824733589503, 2037035976334486086268445688409378161051468393665936229036185517849498365076471976493579759, []⟩,
    ⟨160, 8148143905337944345073782753637512644205873574663745002544561797417525199053346824733589503, 2658455991569831745807614120560689152, 1024, 2037035976334486086268445688409378161051468393665936250636140449354381299763336706183397375, [⟨121, 0, 1024⟩]⟩,
    ⟨185, 8148143905337944345073782753637512644205873574663745002544561797417525199053346824733589503, 302231454903657293676544, 8148143905337944345073782753637512644205873574663745002544561797417525199053346824733589503, 2037035976334486086268445688409378161051468393665936229036185517849498365076471976493579759, []⟩,
    ⟨196, 8148143905337944345073782753637512644205873574663745002544561797417525199053346824733589503, 1180591620717411303424, 8148143905337944345073782753637512644205873574663745002544561797417525199053346824733589503, 2037035976334486086268445688409378161051468393665936250636140449354381299763336706183397375, []⟩]
  | .UnionPipeOperator => [
    ⟨13, 8148143905337944345073782753637512644205873574663745002544561797417525199053346824733589503, 2361183241434822606848, 8796093022208, 2037035976334486086268445688409378161051468393665936250636140449354381299763336706183397375, [⟨71, 41538374868278621028243970633760768, 8796093022208⟩]⟩,
    ⟨33, 8148143905337944345073782753637512644205873574663745002544561797417525199053346824733589503, 3541774862152233910272, 200867255532373784442745261542645325315275950683601407836160, 2037035976334486086268445688409378161051468393665936250636140449354381299763336706183397375, [⟨70, 0, 576460752303423488⟩, ⟨71, 41538374868278621028243970633760768, 200867255532373784442745261542645325315275950683601407836160⟩]⟩,
    ⟨99, 8148143905337944345073782753637512644205873574663745002544561797417525199053346824733589503, 1180591620717411303424, 8148143905337944345073782753637512644205873574663745002544561797417525199053346824733589503, 2037035976334486086268445688409378161051468393665936250636140449354381299763336706183397375, []⟩,
    ⟨112, 8148143905337944345073782753637512644205873574663745002544561797417525199053346824733589503, 3541774862152233910272, 11417981711791459291190087015212230803462291456, 2037035976334486086268445688409378161051468393665936250636140449354381299763336706183397375, [⟨70, 0, 11417981711791459291190087015212230803462291456⟩, ⟨71, 41538374868278621028243970633760768, 11417981711791459291190087015212230803462291456⟩]⟩]
  | .UnpivotOperator => [
    ⟨4, 8148143905337944345073782753637512644205873574663745002544561797417525199053346824733589503, 302231454903657293676544, 8148143905337944345073782753637512644205873574663745002544561797417525199053346824733589503, 2037035976334486086268445688409378161051468393665936229036185517849498365076471976493579759, []⟩,
    ⟨9, 8148143905337944345073782753637512644205873574663745002544561797417525199053346824733589503, 1180591620717411303424, 536870912, 2037035976334486086268445688409378161051468393665936250636140449354381299763336706183397375, [⟨70, 0, 536870912⟩]⟩,
    ⟨29, 8148143905337944345073782753637512644205873574663745002544561797417525199053346824733589503, 174224571863520493293247799005065324265472, 8148143905337944345073782753637512644205873574663745002544561797417525199053346824733589503, 2037035976334486086268445688409378161051468393665936250636140449354381299763336706183397375, []⟩,
    ⟨92, 8148143905337944345073782753637512644205873574663745002544561797417525199053346824733589503, 1180591620717411303424, 8148143905337944345073782753637512644205873574663745002544561797417525199053346824733589503, 2037035976334486086268445688409378161051468393665936250636140449354381299763336706183397375, []⟩]
  | .UnpivotPipeOperator => [
    ⟨4, 8148143905337944345073782753637512644205873574663745002544561797417525199053346824733589503, 302231454903657293676544, 8148143905337944345073782753637512644205873574663745002544561797417525199053346824733589503, 2037035976334486086268445688409378161051468393665936229036185517849498365076471976493579759, []⟩,
    ⟨9, 8148143905337944345073782753637512644205873574663745002544561797417525199053346824733589503, 1180591620717411303424, 536870912, 2037035976334486086268445688409378161051468393665936250636140449354381299763336706183397375, [⟨70, 0, 536870912⟩]⟩,
    ⟨29, 8148143905337944345073782753637512644205873574663745002544561797417525199053346824733589503, 174224571863520493293247799005065324265472, 8148143905337944345073782753637512644205873574663745002544561797417525199053346824733589503, 2037035976334486086268445688409378161051468393665936250636140449354381299763336706183397375, []⟩,
    ⟨99, 8148143905337944345073782753637512644205873574663745002544561797417525199053346824733589503, 2361183241434822606848, 1298074233976520020966690877603840, 2037035976334486086268445688409378161051468393665936250636140449354381299763336706183397375, [⟨71, 41538374868278621028243970633760768, 1298074233976520020966690877603840⟩]⟩]
  | .UnpivotConfig => [
    ⟨64, 8148143905337944345073782753637512644205873574663745002544561797417525199053346824733589503, 1606938044258990275541962092341162602522202993782792835301375, 8148143905337944345073782753637512644205873574663745002544561797417525199053346824733589503, 2037035976334486086268445688409378161051468393665936250636140449354381299763336706049179647, []⟩,
    ⟨71, 8148143905337944345073782753637512644205873574663745002544561797417525199053346824733589503, 4722366482869645213696, 8148143905337944345073782753637512644205873574663745002544561797417525199053346824733589503, 2037035976334486086268445688409378161051468393665936250636140449354381299763336706183397375, []⟩,
    ⟨90, 8148143905337944345073782753637512644205873574663745002544561797417525199053346824733589503, 37778931862957161709568, 8148143905337944345073782753637512644205873574663745002544561797417525199053346824733589503, 2037035976334486086268445688409378161051468393665936250636140449354381299763336706183397375, []⟩,
    ⟨159, 8148143905337944345073782753637512644205873574663745002544561797417525199053346824733589503, 2658455991569831745807614120560689152, 8148143905337944345073782753637512644205873574663745002544561797417525199053346824733589503, 2037035976334486086268445688409378161051468393665936250636140449354381299763336706183397375, []⟩]
  | .UpdateStatement => [
    ⟨21, 8148143905337944345073782753637512644205873574663745002544561797417525199053346824733589503, 2658455991569831745807614120560689152, 8148143905337944345073782753637512644205873574663745002544561797417525199053346824733589503, 2037035976334486086268445688409378161051468393665936250636140449354381299763336706183397375, []⟩,
    ⟨75, 8148143905337944345073782753637512644205873574663745002544561797417525199053346824733589503, 4722366482869645213696, 316912650057057350374175801344, 2037035976334486086268445688409378161051468393665936250636140449354381299763336706183397375, [⟨72, 0, 316912650057057350374175801344⟩]⟩,
    ⟨103, 8148143905337944345073782753637512644205873574663745002544561797417525199053346824733589503, 302231454903657293676544, 8148143905337944345073782753637512644205873574663745002544561797417525199053346824733589503, 2037035976334486086268445688409378161051468393665936229036185517849498365076471976493579759, []⟩,
    ⟨160, 8148143905337944345073782753637512644205873574663745002544561797417525199053346824733589503, 2658455991569831745807614120560689152, 1024, 2037035976334486086268445688409378161051468393665936250636140449354381299763336706183397375, [⟨121, 0, 1024⟩]⟩,
    ⟨161, 8148143905337944345073782753637512644205873574663745002544561797417525199053346824733589503, 9444732965739290427392, 8148143905337944345073782753637512644205873574663745002544561797417525199053346824733589503, 2037035976334486086268445688409378161051468393665936250636140449354381299763336706183397375, []⟩,
    ⟨174, 8148143905337944345073782753637512644205873574663745002544561797417525199053346824733589503, 1606938044258990275541962092341162602522202993782792835301375, 8148143905337944345073782753637512644205873574663745002544561797417525199053346824733589503, 2037035976334486086268445688409378161051468393665936250636140449354381299763336706049179647, []⟩,
    ⟨185, 8148143905337944345073782753637512644205873574663745002544561797417525199053346824733589503, 302231454903657293676544, 8148143905337944345073782753637512644205873574663745002544561797417525199053346824733589503, 2037035976334486086268445688409378161051468393665936229036185517849498365076471976493579759, []⟩,
    ⟨198, 8148143905337944345073782753637512644205873574663745002544561797417525199053346824733589503, 4722366482869645213696, 107839786668602559178668060348078522694548577690162289924414440996864, 2037035976334486086268445688409378161051468393665936250636140449354381299763336706183397375, [⟨72, 0, 107839786668602559178668060348078522694548577690162289924414440996864⟩]⟩]
  | .WhenClause => [
    ⟨6, 8148143905337944345073782753637512644205873574663745002544561797417525199053346824733589503, 4722366482869645213696, 67108864, 2037035976334486086268445688409378161051468393665936250636140449354381299763336706183397375, [⟨72, 0, 67108864⟩]⟩,
    ⟨14, 8148143905337944345073782753637512644205873574663745002544561797417525199053346824733589503, 1180591620717411303424, 8148143905337944345073782753637512644205873574663745002544561797417525199053346824733589503, 2037035976334486086268445688409378161051468393665936250636140449354381299763336706183397375, []⟩,
    ⟨108, 8148143905337944345073782753637512644205873574663745002544561797417525199053346824733589503, 1180591620717411303424, 8148143905337944345073782753637512644205873574663745002544561797417525199053346824733589503, 2037035976334486086268445688409378161051468393665936250636140449354381299763336706183397375, []⟩,
    ⟨116, 8148143905337944345073782753637512644205873574663745002544561797417525199053346824733589503, 1180591620717411303424, 2787593149816327892691964784081045188247552, 2037035976334486086268445688409378161051468393665936250636140449354381299763336706183397375, [⟨70, 0, 2787593149816327892691964784081045188247552⟩]⟩,
    ⟨179, 8148143905337944345073782753637512644205873574663745002544561797417525199053346824733589503, 75557863725914323419136, 8148143905337944345073782753637512644205873574663745002544561797417525199053346824733589503, 2037035976334486086268445688409378161051468393665936250636140449354381299763336706183397375, []⟩]
  | .WhileStatement => [
    ⟨21, 8148143905337944345073782753637512644205873574663745002544561797417525199053346824733589503, 2658455991569831745807614120560689152, 8148143905337944345073782753637512644205873574663745002544561797417525199053346824733589503, 2037035976334486086268445688409378161051468393665936250636140449354381299763336706183397375, []⟩,
    ⟨28, 8148143905337944345073782753637512644205873574663745002544561797417525199053346824733589503, 1606938044258990275541962092341162602522202993782792835301375, 8148143905337944345073782753637512644205873574663745002544561797417525199053346824733589503, 2037035976334486086268445688409378161051468393665936250636140449354381299763336706049179119, []⟩,
    ⟨47, 8148143905337944345073782753637512644205873574663745002544561797417525199053346824733589503, 151115727451828646838272, 8148143905337944345073782753637512644205873574663745002544561797417525199053346824733589503, 2037035976334486086268445688409378161051468393665936250636140449354381299763336706183397375, []⟩,
    ⟨60, 8148143905337944345073782753637512644205873574663745002544561797417525199053346824733589503, 1180591620717411303424, 8148143905337944345073782753637512644205873574663745002544561797417525199053346824733589503, 2037035976334486086268445688409378161051468393665936250636140449354381299763336706183397375, []⟩,
    ⟨103, 8148143905337944345073782753637512644205873574663745002544561797417525199053346824733589503, 302231454903657293676544, 8148143905337944345073782753637512644205873574663745002544561797417525199053346824733589503, 2037035976334486086268445688409378161051468393665936229036185517849498365076471976493579759, []⟩,
    ⟨160, 8148143905337944345073782753637512644205873574663745002544561797417525199053346824733589503, 2658455991569831745807614120560689152, 1024, 2037035976334486086268445688409378161051468393665936250636140449354381299763336706183397375, [⟨121, 0, 1024⟩]⟩,
    ⟨185, 8148143905337944345073782753637512644205873574663745002544561797417525199053346824733589503, 302231454903657293676544, 8148143905337944345073782753637512644205873574663745002544561797417525199053346824733589503, 2037035976334486086268445688409378161051468393665936229036185517849498365076471976493579759, []⟩]
  | .WindowClause => [
    ⟨200, 8148143905337944345073782753637512644205873574663745002544561797417525199053346824733589503, 5575186299632655785383929568162090376495104, 8148143905337944345073782753637512644205873574663745002544561797417525199053346824733589503, 2037035976334486086268445688409378161051468393665936250636140449354381299763336706183397375, []⟩]
  | .WindowExpr => [
    ⟨9, 8148143905337944345073782753637512644205873574663745002544561797417525199053346824733589503, 1180591620717411303424, 8148143905337944345073782753637512644205873574663745002544561797417525199053346824733589503, 2037035976334486086268445688409378161051468393665936250636140449354381299763336706183397375, []⟩,
    ⟨27, 8148143905337944345073782753637512644205873574663745002544561797417525199053346824733589503, 2658455991569831745807614120560689152, 64, 2037035976334486086268445688409378161051468393665936250636140449354381299763336706183397375, [⟨121, 0, 64⟩]⟩,
    ⟨199, 8148143905337944345073782753637512644205873574663745002544561797417525199053346824733589503, 22300745198530623141837949727552018799656960, 8148143905337944345073782753637512644205873574663745002544561797417525199053346824733589503, 2037035976334486086268445688409378161051468393665936229036185517849498365076471976493579759, []⟩]
  | .WindowFrameClause => [
    ⟨6, 8148143905337944345073782753637512644205873574663745002544561797417525199053346824733589503, 1180591620717411303424, 8148143905337944345073782753637512644205873574663745002544561797417525199053346824733589503, 2037035976334486086268445688409378161051468393665936250636140449354381299763336706183397375, []⟩,
    ⟨12, 8148143905337944345073782753637512644205873574663745002544561797417525199053346824733589503, 1180591620717411303424, 137438953472, 2037035976334486086268445688409378161051468393665936250636140449354381299763336706183397375, [⟨70, 0, 137438953472⟩]⟩,
    ⟨54, 8148143905337944345073782753637512644205873574663745002544561797417525199053346824733589503, 1606938044258990275541962092341162602522202993782792835301375, 8148143905337944345073782753637512644205873574663745002544561797417525199053346824733589503, 2037035976334486086268445688409378161051468393665936250636140449354381299763336706049179119, []⟩,
    ⟨166, 8148143905337944345073782753637512644205873574663745002544561797417525199053346824733589503, 1606938044258990275541962092341162602522202993782792835301375, 8148143905337944345073782753637512644205873574663745002544561797417525199053346824733589503, 2037035976334486086268445688409378161051468393665936250636140449354381299763336706049179119, []⟩]
  | .WindowSpecification => [
    ⟨74, 8148143905337944345073782753637512644205873574663745002544561797417525199053346824733589503, 11150372599265311570767859136324180752990208, 392319606750505861162030959237113501743303279116464160768, 2037035976334486086268445688409378161051468393665936250636140449354381299763336706183397375, []⟩,
    ⟨114, 8148143905337944345073782753637512644205873574663745002544561797417525199053346824733589503, 302231454903657293676544, 8148143905337944345073782753637512644205873574663745002544561797417525199053346824733589503, 2037035976334486086268445688409378161051468393665936229036185517849498365076471976493579759, []⟩,
    ⟨125, 8148143905337944345073782753637512644205873574663745002544561797417525199053346824733589503, 1427247692705959881058285969449495136382746624, 1427247692705959881058285969449495136382746624, 2037035976334486086268445688409378161051468393665936250636140449354381299763336706183397375, [⟨150, 0, 1427247692705959881058285969449495136382746624⟩]⟩,
    ⟨133, 8148143905337944345073782753637512644205873574663745002544561797417525199053346824733589503, 1427247692705959881058285969449495136382746624, 182687704666362864775460604089535377456991567872, 2037035976334486086268445688409378161051468393665936250636140449354381299763336706183397375, [⟨150, 0, 182687704666362864775460604089535377456991567872⟩]⟩,
    ⟨159, 8148143905337944345073782753637512644205873574663745002544561797417525199053346824733589503, 2658455991569831745807614120560689152, 8148143905337944345073782753637512644205873574663745002544561797417525199053346824733589503, 2037035976334486086268445688409378161051468393665936250636140449354381299763336706183397375, []⟩]
  | .WithClause => [
    ⟨142, 8148143905337944345073782753637512644205873574663745002544561797417525199053346824733589503, 713623846352979940529142984724747568191373312, 8148143905337944345073782753637512644205873574663745002544561797417525199053346824733589503, 2037035976334486086268445688409378161051468393665936250636140449354381299763336706183397375, []⟩,
    ⟨145, 8148143905337944345073782753637512644205873574663745002544561797417525199053346824733589503, 1180591620717411303424, 2993155353253689176481146537402947624255349848014848, 2037035976334486086268445688409378161051468393665936250636140449354381299763336706183397375, [⟨70, 0, 2993155353253689176481146537402947624255349848014848⟩]⟩]
  | .WithOffsetClause => [
    ⟨4, 8148143905337944345073782753637512644205873574663745002544561797417525199053346824733589503, 302231454903657293676544, 8148143905337944345073782753637512644205873574663745002544561797417525199053346824733589503, 2037035976334486086268445688409378161051468393665936229036185517849498365076471976493579759, []⟩,
    ⟨9, 8148143905337944345073782753637512644205873574663745002544561797417525199053346824733589503, 1180591620717411303424, 536870912, 2037035976334486086268445688409378161051468393665936250636140449354381299763336706183397375, [⟨70, 0, 536870912⟩]⟩,
    ⟨119, 8148143905337944345073782753637512644205873574663745002544561797417525199053346824733589503, 1180591620717411303424, 8148143905337944345073782753637512644205873574663745002544561797417525199053346824733589503, 2037035976334486086268445688409378161051468393665936250636140449354381299763336706183397375, []⟩]
  | .WithPipeOperator => [
    ⟨142, 8148143905337944345073782753637512644205873574663745002544561797417525199053346824733589503, 713623846352979940529142984724747568191373312, 8148143905337944345073782753637512644205873574663745002544561797417525199053346824733589503, 2037035976334486086268445688409378161051468393665936250636140449354381299763336706183397375, []⟩,
    ⟨145, 8148143905337944345073782753637512644205873574663745002544561797417525199053346824733589503, 1180591620717411303424, 2993155353253689176481146537402947624255349848014848, 2037035976334486086268445688409378161051468393665936250636140449354381299763336706183397375, [⟨70, 0, 2993155353253689176481146537402947624255349848014848⟩]⟩]
  | .WithPartitionColumnsClause => [
    ⟨25, 8148143905337944345073782753637512644205873574663745002544561797417525199053346824733589503, 590295810358705651712, 8148143905337944345073782753637512644205873574663745002544561797417525199053346824733589503, 2037035976334486086268445688409378161051468393665936250636140449354381299763336706183397375, []⟩,
    ⟨132, 8148143905337944345073782753637512644205873574663745002544561797417525199053346824733589503, 1180591620717411303424, 8148143905337944345073782753637512644205873574663745002544561797417525199053346824733589503, 2037035976334486086268445688409378161051468393665936250636140449354381299763336706183397375, []⟩]
  | .WithQuery => [
    ⟨9, 8148143905337944345073782753637512644205873574663745002544561797417525199053346824733589503, 1180591620717411303424, 8148143905337944345073782753637512644205873574663745002544561797417525199053346824733589503, 2037035976334486086268445688409378161051468393665936250636140449354381299763336706183397375, []⟩,
    ⟨27, 8148143905337944345073782753637512644205873574663745002544561797417525199053346824733589503, 2658455991569831745807614120560689152, 64, 2037035976334486086268445688409378161051468393665936250636140449354381299763336706183397375, [⟨121, 0, 64⟩]⟩,
    ⟨167, 8148143905337944345073782753637512644205873574663745002544561797417525199053346824733589503, 147573952589676412928, 8148143905337944345073782753637512644205873574663745002544561797417525199053346824733589503, 2037035976334486086268445688409378161051466932164298898133267314164665648793452320561036783, []⟩]
  | .XXXByExprs => [
    ⟨13, 8148143905337944345073782753637512644205873574663745002544561797417525199053346824733589503, 1180591620717411303424, 8148143905337944345073782753637512644205873574663745002544561797417525199053346824733589503, 2037035976334486086268445688409378161051468393665936250636140449354381299763336706183397375, []⟩]
  | _ => []

end Verif.AI
