import Verif.Analysis.Domain
/-! Generated by tools/GenTable.lean.txt: summaries of the parse functions, checked in Verif.Analysis.Check. -/
namespace Verif.AI.Table

/-- Summaries of `parse_between_operator`. -/
def parse_between_operator : List Entry := [
  ⟨false, [.closed], 137438953472, TOP,
    .node [⟨.BetweenOperator, 137015778499772168864005056718821957039994961984, 12259964326927110866866781287804874381867518964281638912, 137015778499772168864005056718821957039994961984, 137438953472⟩],
    TOP, TOP⟩]

/-- Summaries of `parse_binary_operator`. -/
def parse_binary_operator : List Entry := [
  ⟨false, [.closed], 289873346565203679072259746929259255638293438298762683416181017427311283, TOP,
    .node [⟨.BinaryOperator, 22838750676445194707234871127646427174563479552, 12259964326927110866866781287804874381867518964281638912, 22835963083295378379342179162862346129375232000, 289873346565203679072259746929259255638293438298762683416181017427311283⟩],
    TOP, TOP⟩,
  ⟨false, [.closed], 332306998946228968225951765070086144, TOP,
    .node [⟨.BinaryOperator, 22838750676528271456971428369702915115831001088, 12259964326927110866866781287804874381867518964281638912, 22835963083295378379342179162862346129375232000, 332306998946228968225951765070086144⟩],
    TOP, TOP⟩]

/-- Summaries of `parse_constraint`. -/
def parse_constraint : List Entry := [
  ⟨false, [], 5846006549323611672893967493379432445014293086208, TOP,
    .node [⟨.Constraint, 89202980794122809498135745567620900570791936, 12259964326927110866866781287959616886778191498644029440, 316912650057057350374175801344, 4074071952668972172536891376818756322102936787331872501272280898708762599526673412366794495⟩],
    TOP, TOP⟩,
  ⟨false, [], TOP, TOP,
    .node [⟨.Constraint, 89202980794122809498135745567620900570791936, 12259964326927110866866781287959616886778191498644029440, 316912650057057350374175801344, TOP⟩],
    TOP, TOP⟩]

/-- Summaries of `parse_cte`. -/
def parse_cte : List Entry := [
  ⟨false, [], 4074071952668972172426463435270101024402245306854676258243639630574970255231278186575691771, TOP,
    .node [⟨.WithQuery, 187072209578355573530071658587684226515959499719168, 12259964326927110866866781287804874381867518964281638912, 187072209578355573530071658587684226515959365501440, 4074071952668972172426463435270101024402245306854676258243639630574970255231278186575691771⟩],
    72, TOP⟩,
  ⟨false, [], TOP, TOP,
    .node [⟨.WithQuery, 187072209578355573530071658587684226515959499719168, 12259964326927110866866781287804874381867518964281638912, 187072209578355573530071658587684226515959365501440, TOP⟩],
    72, TOP⟩]

/-- Summaries of `parse_enforced`. -/
def parse_enforced : List Entry := [
  ⟨false, [], 2787593149816327893296427693888359775600640, TOP,
    .node [⟨.Keyword, 0, 12259964326927110866866781287804874381867518964281638912, 0, 604462909807314587353088⟩,
      ⟨.KeywordSequence, 41538374868278621028243970633760768, 12259964326927110866866781287804874381867518964281638912, 41538374868278621028243970633760768, 2787593149816327892691964784081045188247552⟩],
    TOP, TOP⟩]

/-- Summaries of `parse_expr`. -/
def parse_expr : List Entry := [
  ⟨false, [.nat, .bool (some false), .bool (some false), .bool (some false), .bool (some true)], 210624583337114373395836055367340864637790190801098222508621955072, TOP,
    .node [⟨.AccessOperator, 753586781770014485413743249487464768921827016704, 12259964326927110867199088286751103350093470729351725056, 753586781748746837481184595521003855957341503488, 3450873173395281893717377931138512726225554486085193277581262111899648⟩,
      ⟨.BinaryOperator, 22838750697795919389530082336163828080316514304, 12259964326927110867199088286751103350093470729351725056, 22835963083295378379342179162862346129375232000, 289873346565203679072259746929259255970600437244991651642132782497397427⟩,
      ⟨.BetweenOperator, 137015778521122893546300267927339357945747996736, 12259964326927110867199088286751103350093470729351725056, 137015778499772168864005056718821957039994961984, 137438953472⟩,
      ⟨.BooleanLiteral, 21267647932558653966460912964485513216, 12259964326927110867199088286751103350093470729351725056, 0, 210624583337114373395836055367340864637790190801098222508621955072⟩,
      ⟨.CallingFunction, 730750819069536850950100243146586497471913918464, 12259964326927110867199088287060588359914815798076506240, 730750818665451459101842567473868961656613109760, 4⟩,
      ⟨.DotOperator, 22835963104563026311900833129323259093860745216, 12259964326927110867199088286751103350093470729351725056, 22835963083295378379342179162862346129375232000, 256⟩,
      ⟨.FunctionChain, 22835963104563026311900833129323259093860745216, 12259964326927110867199088286751103350093470729351725056, 22835963083295378379342179162862346129375232000, 256⟩,
      ⟨.Identifier, 21267647932558653966460912964485513216, 12259964326927110867199088286751103350093470729351725056, 0, 210624583337114373395836055367340864637790190801098222508621955072⟩,
      ⟨.InOperator, 22835963104646103061637390371379747035128266752, 12259964326927110867199088286751103350093470729351725056, 22835963083295378379342179162862346129375232000, 649037107316853453566312041152512⟩,
      ⟨.IsDistinctFromOperator, 22835963104646103061637428150311645176662065152, 12259964326927110867199088286751103350093470729351725056, 22835963083295378379342216941794244270909030400, 332306998946228968225951765070086144⟩,
      ⟨.NumericLiteral, 21267647932558653966460912964485513216, 12259964326927110867199088286751103350093470729351725056, 0, 210624583337114373395836055367340864637790190801098222508621955072⟩,
      ⟨.NullLiteral, 21267647932558653966460912964485513216, 12259964326927110867199088286751103350093470729351725056, 0, 210624583337114373395836055367340864637790190801098222508621955072⟩,
      ⟨.Parameter, 21267647932558653966460912964485513216, 12259964326927110867199088286751103350093470729351725056, 0, 210624583337114373395836055367340864637790190801098222508621955072⟩,
      ⟨.StringLiteral, 21267647932558653966460912964485513216, 12259964326927110867199088286751103350093470729351725056, 0, 210624583337114373395836055367340864637790190801098222508621955072⟩,
      ⟨.Template, 21267647932558653966460912964485513216, 12259964326927110867199088286751103350093470729351725056, 0, 210624583337114373395836055367340864637790190801098222508621955072⟩,
      ⟨.Unknown, 21267647932558653966460912964485513216, 12259964326927110867199088286751103350093470729351725056, 0, 210624583337114373395836055367340864637790190801098222508621955072⟩],
    TOP, TOP⟩,
  ⟨false, [.nat, .bool (some false), .bool (some false), .bool (some false), .bool (some true)], 4074071952668972172536891376818756322102936787331872501272280898708762599526673412366794747, TOP,
    .node [⟨.AccessOperator, 753586781770014485413743249487464768921827016704, 12259964326927110867199088286751103350093470729351725056, 753586781748746837481184595521003855957341503488, 3450873173395281893717377931138512726225554486085193277581262111899648⟩,
      ⟨.ArrayLiteral, 1569275434577421009645666462836317674350191283908460412928, 12259964326927110867199088286751103386986958876770828288, 730750818665451459101842416395034997975385374720, TOP⟩,
      ⟨.Asterisk, 1427247713973607813616939940522094119295647744, 12259964326927110867199088286751103350093470729351725056, 0, 16⟩,
      ⟨.BinaryOperator, 22838750697795919389530082336163828080316514304, 12259964326927110867199088286751103350093470729351725056, 22835963083295378379342179162862346129375232000, 289873346565203679072259746929259255970600437244991651642132782497397427⟩,
      ⟨.BetweenOperator, 137015778521122893546300267927339357945747996736, 12259964326927110867199088286751103350093470729351725056, 137015778499772168864005056718821957039994961984, 137438953472⟩,
      ⟨.BooleanLiteral, 21267647932558653966460912964485513216, 12259964326927110867199088286751103350093470729351725056, 0, 4074071952668972172091728737449553477177717115986308812131628405628571720572130414540357451⟩,
      ⟨.CallingFunction, 730750819069536850950100243146586497471913918464, 12259964326927110867199088287060588359914815798076506240, 730750818665451459101842567473868961656613109760, 4⟩,
      ⟨.CaseExpr, 21267647932558653984925671436704546816, 12259964326927110867199088286751103350093470729351725312, 18014398509482240, 140737488355328⟩,
      ⟨.DotOperator, 22835963104563026311900833129323259093860745216, 12259964326927110867199088286751103350093470729351725056, 22835963083295378379342179162862346129375232000, 256⟩,
      ⟨.FromStatement, 3213876088519442052721276355248461448531107178242279798210560, 12259964326927110867199088286751103350093470729351725056, 3213876088517980551083924184682325205044424434309659380154368, 316912650057057350374175801344⟩,
      ⟨.FunctionChain, 22835963104563026311900833129323259093860745216, 12259964326927110867199088286751103350093470729351725056, 22835963083295378379342179162862346129375232000, 256⟩,
      ⟨.GroupedStatement, 3213876088705783511481009012696426020424954420026055464058880, 12259964326927110867199088286751103350093470729351725056, 187802960397021024989173501004042368025787331772416, 4⟩,
      ⟨.Identifier, 21267647932558653966460912964485513216, 12259964326927110867199088286751103350093470729351725056, 0, 4074071952668972172091728737449553477177717115986308812131628405628571720572130414540357451⟩,
      ⟨.IntervalLiteral, 9194973245195333171417730095460509086620091908735631360, 12259964326927110867199088286751103350093470729351725056, 18446744211148505088, 83076749736557242056487941267521536⟩,
      ⟨.InOperator, 22835963104646103061637390371379747035128266752, 12259964326927110867199088286751103350093470729351725056, 22835963083295378379342179162862346129375232000, 649037107316853453566312041152512⟩,
      ⟨.IsDistinctFromOperator, 22835963104646103061637428150311645176662065152, 12259964326927110867199088286751103350093470729351725056, 22835963083295378379342216941794244270909030400, 332306998946228968225951765070086144⟩,
      ⟨.NumericLiteral, 21267647932558653966460912964485513216, 12259964326927110867199088286751103350093470729351725056, 0, 4074071952668972172091728737449553477177717115986308812131628405628571720572130414540357451⟩,
      ⟨.NullLiteral, 21267647932558653966460912964485513216, 12259964326927110867199088286751103350093470729351725056, 0, 4074071952668972172091728737449553477177717115986308812131628405628571720572130414540357451⟩,
      ⟨.Parameter, 21267647932558653966460912964485513216, 12259964326927110867199088286751103350093470729351725056, 0, 4074071952668972172091728737449553477177717115986308812131628405628571720572130414540357451⟩,
      ⟨.PipeStatement, 3213876088519464888684359650626840790710251593844335463890944, 12259964326927110867199088286751103350093470729351725056, 22835963083295378379342179162862346129375232000, 110427941548649020598956093796432407239217743554726184882600387580788736⟩,
      ⟨.RangeLiteral, 1569275433846670190980215003734475257992049774080494141440, 12259964326927110867199088286751103350093470729351725056, 1569275433846670190958947355801916604025588861116008628224, TOP⟩,
      ⟨.SelectStatement, 4419079621712223259134256131871288423740954719401949318348800, 12259964326927110867199088286751103386986958876770829312, 36893488147419103232, 4074071952668972172536028658525407501629507442849087873090724510087241301207278096838819835⟩,
      ⟨.SetOperator, 3213876088518003387047071288277928720134902542947271170859008, 12259964326927110867199088286751103350093470729351725056, 22835963083295378379342179162862416498119409664, TOP⟩,
      ⟨.StringLiteral, 21267647932558653966460912964485513216, 12259964326927110867199088286751103350093470729351725056, 0, 4074071952668972172091728737449553477177717115986308812131628405628571720572130414540357451⟩,
      ⟨.StructLiteral, 1569275434577421009645666462836317674350191283908460412928, 12259964326927110867199088286751103386986958876770828288, 1569275434577421009624398814903759020420623859091394002944, TOP⟩,
      ⟨.Template, 21267647932558653966460912964485513216, 12259964326927110867199088286751103350093470729351725056, 0, 4074071952668972172091728737449553477177717115986308812131628405628571720572130414540357451⟩,
      ⟨.UnaryOperator, 22835963104563006029491229477652835146609459200, 12259964326927110867199088286751103350093470729351725056, 22835963083295358096932575511191922182123945984, 441711766272532577544069053460982556175854468465873677685279319654400160⟩,
      ⟨.Unknown, 21267647932558653966460912964485513216, 12259964326927110867199088286751103350093470729351725056, 0, 4074071952668972172091728737449553477177717115986308812131628405628571720572130414540357451⟩],
    TOP, TOP⟩,
  ⟨false, [.nat, .bool (some false), .bool (some false), .bool (some false), .bool (some true)], TOP, TOP,
    .node [⟨.AccessOperator, 753586781770014485413743249487464768921827016704, 12259964326927110867199088286751103350093470729351725056, 753586781748746837481184595521003855957341503488, 3450873173395281893717377931138512726225554486085193277581262111899648⟩,
      ⟨.ArrayLiteral, 1569275434577421009645666462836317674350191283908460412928, 12259964326927110867199088286751103386986958876770828288, 730750818665451459101842416395034997975385374720, TOP⟩,
      ⟨.Asterisk, 1427247713973607813616939940522094119295647744, 12259964326927110867199088286751103350093470729351725056, 0, 16⟩,
      ⟨.BinaryOperator, 22838750697795919389530082336163828080316514304, 12259964326927110867199088286751103350093470729351725056, 22835963083295378379342179162862346129375232000, 289873346565203679072259746929259255970600437244991651642132782497397427⟩,
      ⟨.BetweenOperator, 137015778521122893546300267927339357945747996736, 12259964326927110867199088286751103350093470729351725056, 137015778499772168864005056718821957039994961984, 137438953472⟩,
      ⟨.BooleanLiteral, 21267647932558653966460912964485513216, 12259964326927110867199088286751103350093470729351725056, 0, 4074071952668972172091728737449553477177717115986308812131628405628571720572130414540357451⟩,
      ⟨.CallingFunction, 730750819069536850950100243146586497471913918464, 12259964326927110867199088287060588359914815798076506240, 730750818665451459101842567473868961656613109760, 4⟩,
      ⟨.CaseExpr, 21267647932558653984925671436704546816, 12259964326927110867199088286751103350093470729351725312, 18014398509482240, 140737488355328⟩,
      ⟨.DotOperator, 22835963104563026311900833129323259093860745216, 12259964326927110867199088286751103350093470729351725056, 22835963083295378379342179162862346129375232000, 256⟩,
      ⟨.EmptyStruct, 730750818686719107034401070324602422792451784704, 12259964326927110867199088286751103350093470729351725056, 730750818665451459101842416358141509827966271488, 4⟩,
      ⟨.FromStatement, 3213876088519442052721276355248461448531107178242279798210560, 12259964326927110867199088286751103350093470729351725056, 3213876088517980551083924184682325205044424434309659380154368, 316912650057057350374175801344⟩,
      ⟨.FunctionChain, 22835963104563026311900833129323259093860745216, 12259964326927110867199088286751103350093470729351725056, 22835963083295378379342179162862346129375232000, 256⟩,
      ⟨.GroupedExpr, 730750818686719107034401070343049166866161336320, 12259964326927110867199088286751103350093470729351725056, 730750818665451459101842416376588253901675823104, 4⟩,
      ⟨.GroupedStatement, 3213876088705783511481009012696426020424954420026055464058880, 12259964326927110867199088286751103350093470729351725056, 187802960397021024989173501004042368025787331772416, 4⟩,
      ⟨.Identifier, 21267647932558653966460912964485513216, 12259964326927110867199088286751103350093470729351725056, 0, 4074071952668972172091728737449553477177717115986308812131628405628571720572130414540357451⟩,
      ⟨.IntervalLiteral, 9194973245195333171417730095460509086620091908735631360, 12259964326927110867199088286751103350093470729351725056, 18446744211148505088, 83076749736557242056487941267521536⟩,
      ⟨.InOperator, 22835963104646103061637390371379747035128266752, 12259964326927110867199088286751103350093470729351725056, 22835963083295378379342179162862346129375232000, 649037107316853453566312041152512⟩,
      ⟨.IsDistinctFromOperator, 22835963104646103061637428150311645176662065152, 12259964326927110867199088286751103350093470729351725056, 22835963083295378379342216941794244270909030400, 332306998946228968225951765070086144⟩,
      ⟨.NumericLiteral, 21267647932558653966460912964485513216, 12259964326927110867199088286751103350093470729351725056, 0, 4074071952668972172091728737449553477177717115986308812131628405628571720572130414540357451⟩,
      ⟨.NullLiteral, 21267647932558653966460912964485513216, 12259964326927110867199088286751103350093470729351725056, 0, 4074071952668972172091728737449553477177717115986308812131628405628571720572130414540357451⟩,
      ⟨.Parameter, 21267647932558653966460912964485513216, 12259964326927110867199088286751103350093470729351725056, 0, 4074071952668972172091728737449553477177717115986308812131628405628571720572130414540357451⟩,
      ⟨.PipeStatement, 3213876088519464888684359650626840790710251593844335463890944, 12259964326927110867199088286751103350093470729351725056, 22835963083295378379342179162862346129375232000, 110427941548649020598956093796432407239217743554726184882600387580788736⟩,
      ⟨.RangeLiteral, 1569275433846670190980215003734475257992049774080494141440, 12259964326927110867199088286751103350093470729351725056, 1569275433846670190958947355801916604025588861116008628224, TOP⟩,
      ⟨.SelectStatement, 4419079621712223259134256131871288423740954719401949318348800, 12259964326927110867199088286751103386986958876770829312, 36893488147419103232, 4074071952668972172536028658525407501629507442849087873090724510087241301207278096838819835⟩,
      ⟨.SetOperator, 3213876088518003387047071288277928720134902542947271170859008, 12259964326927110867199088286751103350093470729351725056, 22835963083295378379342179162862416498119409664, TOP⟩,
      ⟨.StringLiteral, 21267647932558653966460912964485513216, 12259964326927110867199088286751103350093470729351725056, 0, 4074071952668972172091728737449553477177717115986308812131628405628571720572130414540357451⟩,
      ⟨.StructLiteral, 1569275434577421009645666462836317674350191283908460412928, 12259964326927110867199088286751103386986958876770828288, 730750818665451459101842416395034997975385374720, TOP⟩,
      ⟨.Template, 21267647932558653966460912964485513216, 12259964326927110867199088286751103350093470729351725056, 0, 4074071952668972172091728737449553477177717115986308812131628405628571720572130414540357451⟩,
      ⟨.UnaryOperator, 22835963104563006029491229477652835146609459200, 12259964326927110867199088286751103350093470729351725056, 22835963083295358096932575511191922182123945984, 441711766272532577544069053460982556175854468465873677685279319654400160⟩,
      ⟨.Unknown, 21267647932558653966460912964485513216, 12259964326927110867199088286751103350093470729351725056, 0, 4074071952668972172091728737449553477177717115986308812131628405628571720572130414540357451⟩],
    TOP, TOP⟩,
  ⟨false, [.nat, .bool (some false), .bool (some false), .bool (some true), .bool (some true)], TOP, TOP,
    .node [⟨.AccessOperator, 753586781770014485413743249487464768921827016704, 12259964326927110867199088286751103350093470729351725056, 753586781748746837481184595521003855957341503488, 3450873173395281893717377931138512726225554486085193277581262111899648⟩,
      ⟨.BinaryOperator, 22838750697795919389530082336163828080316514304, 12259964326927110867199088286751103350093470729351725056, 22835963083295378379342179162862346129375232000, 289873346565203679072259746929259255970600437244991651642132782497397427⟩,
      ⟨.BetweenOperator, 137015778521122893546300267927339357945747996736, 12259964326927110867199088286751103350093470729351725056, 137015778499772168864005056718821957039994961984, 137438953472⟩,
      ⟨.CallingFunction, 730750819069536850950100243146586497471913918464, 12259964326927110867199088287060588359914815798076506240, 730750818665451459101842567473868961656613109760, 4⟩,
      ⟨.DotOperator, 22835963104563026311900833129323259093860745216, 12259964326927110867199088286751103350093470729351725056, 22835963083295378379342179162862346129375232000, 256⟩,
      ⟨.FunctionChain, 22835963104563026311900833129323259093860745216, 12259964326927110867199088286751103350093470729351725056, 22835963083295378379342179162862346129375232000, 256⟩,
      ⟨.Identifier, 21267647932558653966460912964485513216, 12259964326927110867199088286751103350093470729351725056, 0, TOP⟩,
      ⟨.InOperator, 22835963104646103061637390371379747035128266752, 12259964326927110867199088286751103350093470729351725056, 22835963083295378379342179162862346129375232000, 649037107316853453566312041152512⟩,
      ⟨.IsDistinctFromOperator, 22835963104646103061637428150311645176662065152, 12259964326927110867199088286751103350093470729351725056, 22835963083295378379342216941794244270909030400, 332306998946228968225951765070086144⟩],
    TOP, TOP⟩,
  ⟨false, [.nat, .bool (some true), .bool (some false), .bool (some false), .bool (some true)], TOP, TOP,
    .node [⟨.AccessOperator, 753586781770014485413743249487464768921827017232, 12259964326927110867199088286751103350093470729351725056, 753586781748746837481184595521003855957341503488, 3450873173395281893717377931138512726225554486085193277581262111899648⟩,
      ⟨.ArrayLiteral, 1569275434577421009645666462836317674350191283908460413456, 12259964326927110867199088286751103386986958876770828288, 730750818665451459101842416395034997975385374720, TOP⟩,
      ⟨.Asterisk, 1427247713973607813616939940522094119295648272, 12259964326927110867199088286751103350093470729351725056, 0, 16⟩,
      ⟨.BinaryOperator, 22838750697795919389530082336163828080316514832, 12259964326927110867199088286751103350093470729351725056, 22835963083295378379342179162862346129375232000, 289873346565203679072259746929259255970600437244991651642132782497397427⟩,
      ⟨.BetweenOperator, 137015778521122893546300267927339357945747997264, 12259964326927110867199088286751103350093470729351725056, 137015778499772168864005056718821957039994961984, 137438953472⟩,
      ⟨.BooleanLiteral, 21267647932558653966460912964485513744, 12259964326927110867199088286751103350093470729351725056, 0, 4074071952668972172091728737449553477177717115986308812131628405628571720572130414540357451⟩,
      ⟨.CallingFunction, 730750819069536850950100243146586497471913918992, 12259964326927110867199088287060588359914815798076506240, 730750818665451459101842567473868961656613109760, 4⟩,
      ⟨.CaseExpr, 21267647932558653984925671436704547344, 12259964326927110867199088286751103350093470729351725312, 18014398509482240, 140737488355328⟩,
      ⟨.DotOperator, 22835963104563026311900833129323259093860745744, 12259964326927110867199088286751103350093470729351725056, 22835963083295378379342179162862346129375232000, 256⟩,
      ⟨.EmptyStruct, 730750818686719107034401070324602422792451785232, 12259964326927110867199088286751103350093470729351725056, 730750818665451459101842416358141509827966271488, 4⟩,
      ⟨.FromStatement, 3213876088519442052721276355248461448531107178242279798211088, 12259964326927110867199088286751103350093470729351725056, 3213876088517980551083924184682325205044424434309659380154368, 316912650057057350374175801344⟩,
      ⟨.FunctionChain, 22835963104563026311900833129323259093860745744, 12259964326927110867199088286751103350093470729351725056, 22835963083295378379342179162862346129375232000, 256⟩,
      ⟨.GroupedExpr, 730750818686719107034401070343049166866161336848, 12259964326927110867199088286751103350093470729351725056, 730750818665451459101842416376588253901675823104, 4⟩,
      ⟨.GroupedStatement, 3213876088705783511481009012696426020424954420026055464059408, 12259964326927110867199088286751103350093470729351725056, 187802960397021024989173501004042368025787331772416, 4⟩,
      ⟨.Identifier, 21267647932558653966460912964485513744, 12259964326927110867199088286751103350093470729351725056, 0, 4074071952668972172091728737449553477177717115986308812131628405628571720572130414540357451⟩,
      ⟨.IntervalLiteral, 9194973245195333171417730095460509086620091908735631888, 12259964326927110867199088286751103350093470729351725056, 18446744211148505088, 83076749736557242056487941267521536⟩,
      ⟨.InOperator, 22835963104646103061637390371379747035128267280, 12259964326927110867199088286751103350093470729351725056, 22835963083295378379342179162862346129375232000, 649037107316853453566312041152512⟩,
      ⟨.IsDistinctFromOperator, 22835963104646103061637428150311645176662065680, 12259964326927110867199088286751103350093470729351725056, 22835963083295378379342216941794244270909030400, 332306998946228968225951765070086144⟩,
      ⟨.NumericLiteral, 21267647932558653966460912964485513744, 12259964326927110867199088286751103350093470729351725056, 0, 4074071952668972172091728737449553477177717115986308812131628405628571720572130414540357451⟩,
      ⟨.NullLiteral, 21267647932558653966460912964485513744, 12259964326927110867199088286751103350093470729351725056, 0, 4074071952668972172091728737449553477177717115986308812131628405628571720572130414540357451⟩,
      ⟨.Parameter, 21267647932558653966460912964485513744, 12259964326927110867199088286751103350093470729351725056, 0, 4074071952668972172091728737449553477177717115986308812131628405628571720572130414540357451⟩,
      ⟨.PipeStatement, 3213876088519464888684359650626840790710251593844335463891472, 12259964326927110867199088286751103350093470729351725056, 22835963083295378379342179162862346129375232000, 110427941548649020598956093796432407239217743554726184882600387580788736⟩,
      ⟨.RangeLiteral, 1569275433846670190980215003734475257992049774080494141968, 12259964326927110867199088286751103350093470729351725056, 1569275433846670190958947355801916604025588861116008628224, TOP⟩,
      ⟨.SelectStatement, 4419079621712223259134256131871288423740954719401949318349328, 12259964326927110867199088286751103386986958876770829312, 36893488147419103232, 4074071952668972172536028658525407501629507442849087873090724510087241301207278096838819835⟩,
      ⟨.SetOperator, 3213876088518003387047071288277928720134902542947271170859536, 12259964326927110867199088286751103350093470729351725056, 22835963083295378379342179162862416498119409664, TOP⟩,
      ⟨.StringLiteral, 21267647932558653966460912964485513744, 12259964326927110867199088286751103350093470729351725056, 0, 4074071952668972172091728737449553477177717115986308812131628405628571720572130414540357451⟩,
      ⟨.StructLiteral, 1569275434577421009645666462836317674350191283908460413456, 12259964326927110867199088286751103386986958876770828288, 730750818665451459101842416395034997975385374720, TOP⟩,
      ⟨.Template, 21267647932558653966460912964485513744, 12259964326927110867199088286751103350093470729351725056, 0, 4074071952668972172091728737449553477177717115986308812131628405628571720572130414540357451⟩,
      ⟨.UnaryOperator, 22835963104563006029491229477652835146609459728, 12259964326927110867199088286751103350093470729351725056, 22835963083295358096932575511191922182123945984, 441711766272532577544069053460982556175854468465873677685279319654400160⟩,
      ⟨.Unknown, 21267647932558653966460912964485513744, 12259964326927110867199088286751103350093470729351725056, 0, 4074071952668972172091728737449553477177717115986308812131628405628571720572130414540357451⟩],
    TOP, TOP⟩,
  ⟨false, [.nat, .bool (some false), .bool (some true), .bool (some false), .bool (some true)], TOP, TOP,
    .node [⟨.AccessOperator, 753586781770014485413743249487464768921827016704, 12259964326927110867199088286751103350093470729351725056, 753586781748746837481184595521003855957341503488, 3450873173395281893717377931138512726225554486085193277581262111899648⟩,
      ⟨.BinaryOperator, 22838750697795919389530082336163828080316514304, 12259964326927110867199088286751103350093470729351725056, 22835963083295378379342179162862346129375232000, 289873346565203679072259746929259255970600437244991651642132782497397427⟩,
      ⟨.BetweenOperator, 137015778521122893546300267927339357945747996736, 12259964326927110867199088286751103350093470729351725056, 137015778499772168864005056718821957039994961984, 137438953472⟩,
      ⟨.CallingFunction, 730750819069536850950100243146586497471913918464, 12259964326927110867199088287060588359914815798076506240, 730750818665451459101842567473868961656613109760, 4⟩,
      ⟨.DotOperator, 22835963104563026311900833129323259093860745216, 12259964326927110867199088286751103350093470729351725056, 22835963083295378379342179162862346129375232000, 256⟩,
      ⟨.FunctionChain, 22835963104563026311900833129323259093860745216, 12259964326927110867199088286751103350093470729351725056, 22835963083295378379342179162862346129375232000, 256⟩,
      ⟨.Identifier, 21267647932558653966460912964485513216, 12259964326927110867199088286751103350093470729351725056, 0, TOP⟩,
      ⟨.InOperator, 22835963104646103061637390371379747035128266752, 12259964326927110867199088286751103350093470729351725056, 22835963083295378379342179162862346129375232000, 649037107316853453566312041152512⟩,
      ⟨.IsDistinctFromOperator, 22835963104646103061637428150311645176662065152, 12259964326927110867199088286751103350093470729351725056, 22835963083295378379342216941794244270909030400, 332306998946228968225951765070086144⟩,
      ⟨.MultiTokenIdentifier, 21267647932558653966460912964485513216, 36779892980781332600932640721156050287993296684289359872, 24519928653854221733733552434404946937899825954937634816, TOP⟩],
    TOP, TOP⟩,
  ⟨false, [.nat, .bool none, .bool (some false), .bool (some false), .bool (some true)], TOP, TOP,
    .node [⟨.AccessOperator, 753586781770014485413743249487464768921827017232, 12259964326927110867199088286751103350093470729351725056, 753586781748746837481184595521003855957341503488, 3450873173395281893717377931138512726225554486085193277581262111899648⟩,
      ⟨.ArrayLiteral, 1569275434577421009645666462836317674350191283908460413456, 12259964326927110867199088286751103386986958876770828288, 730750818665451459101842416395034997975385374720, TOP⟩,
      ⟨.Asterisk, 1427247713973607813616939940522094119295648272, 12259964326927110867199088286751103350093470729351725056, 0, 16⟩,
      ⟨.BinaryOperator, 22838750697795919389530082336163828080316514832, 12259964326927110867199088286751103350093470729351725056, 22835963083295378379342179162862346129375232000, 289873346565203679072259746929259255970600437244991651642132782497397427⟩,
      ⟨.BetweenOperator, 137015778521122893546300267927339357945747997264, 12259964326927110867199088286751103350093470729351725056, 137015778499772168864005056718821957039994961984, 137438953472⟩,
      ⟨.BooleanLiteral, 21267647932558653966460912964485513744, 12259964326927110867199088286751103350093470729351725056, 0, 4074071952668972172091728737449553477177717115986308812131628405628571720572130414540357451⟩,
      ⟨.CallingFunction, 730750819069536850950100243146586497471913918992, 12259964326927110867199088287060588359914815798076506240, 730750818665451459101842567473868961656613109760, 4⟩,
      ⟨.CaseExpr, 21267647932558653984925671436704547344, 12259964326927110867199088286751103350093470729351725312, 18014398509482240, 140737488355328⟩,
      ⟨.DotOperator, 22835963104563026311900833129323259093860745744, 12259964326927110867199088286751103350093470729351725056, 22835963083295378379342179162862346129375232000, 256⟩,
      ⟨.EmptyStruct, 730750818686719107034401070324602422792451785232, 12259964326927110867199088286751103350093470729351725056, 730750818665451459101842416358141509827966271488, 4⟩,
      ⟨.FromStatement, 3213876088519442052721276355248461448531107178242279798211088, 12259964326927110867199088286751103350093470729351725056, 3213876088517980551083924184682325205044424434309659380154368, 316912650057057350374175801344⟩,
      ⟨.FunctionChain, 22835963104563026311900833129323259093860745744, 12259964326927110867199088286751103350093470729351725056, 22835963083295378379342179162862346129375232000, 256⟩,
      ⟨.GroupedExpr, 730750818686719107034401070343049166866161336848, 12259964326927110867199088286751103350093470729351725056, 730750818665451459101842416376588253901675823104, 4⟩,
      ⟨.GroupedStatement, 3213876088705783511481009012696426020424954420026055464059408, 12259964326927110867199088286751103350093470729351725056, 187802960397021024989173501004042368025787331772416, 4⟩,
      ⟨.Identifier, 21267647932558653966460912964485513744, 12259964326927110867199088286751103350093470729351725056, 0, 4074071952668972172091728737449553477177717115986308812131628405628571720572130414540357451⟩,
      ⟨.IntervalLiteral, 9194973245195333171417730095460509086620091908735631888, 12259964326927110867199088286751103350093470729351725056, 18446744211148505088, 83076749736557242056487941267521536⟩,
      ⟨.InOperator, 22835963104646103061637390371379747035128267280, 12259964326927110867199088286751103350093470729351725056, 22835963083295378379342179162862346129375232000, 649037107316853453566312041152512⟩,
      ⟨.IsDistinctFromOperator, 22835963104646103061637428150311645176662065680, 12259964326927110867199088286751103350093470729351725056, 22835963083295378379342216941794244270909030400, 332306998946228968225951765070086144⟩,
      ⟨.NumericLiteral, 21267647932558653966460912964485513744, 12259964326927110867199088286751103350093470729351725056, 0, 4074071952668972172091728737449553477177717115986308812131628405628571720572130414540357451⟩,
      ⟨.NullLiteral, 21267647932558653966460912964485513744, 12259964326927110867199088286751103350093470729351725056, 0, 4074071952668972172091728737449553477177717115986308812131628405628571720572130414540357451⟩,
      ⟨.Parameter, 21267647932558653966460912964485513744, 12259964326927110867199088286751103350093470729351725056, 0, 4074071952668972172091728737449553477177717115986308812131628405628571720572130414540357451⟩,
      ⟨.PipeStatement, 3213876088519464888684359650626840790710251593844335463891472, 12259964326927110867199088286751103350093470729351725056, 22835963083295378379342179162862346129375232000, 110427941548649020598956093796432407239217743554726184882600387580788736⟩,
      ⟨.RangeLiteral, 1569275433846670190980215003734475257992049774080494141968, 12259964326927110867199088286751103350093470729351725056, 1569275433846670190958947355801916604025588861116008628224, TOP⟩,
      ⟨.SelectStatement, 4419079621712223259134256131871288423740954719401949318349328, 12259964326927110867199088286751103386986958876770829312, 36893488147419103232, 4074071952668972172536028658525407501629507442849087873090724510087241301207278096838819835⟩,
      ⟨.SetOperator, 3213876088518003387047071288277928720134902542947271170859536, 12259964326927110867199088286751103350093470729351725056, 22835963083295378379342179162862416498119409664, TOP⟩,
      ⟨.StringLiteral, 21267647932558653966460912964485513744, 12259964326927110867199088286751103350093470729351725056, 0, 4074071952668972172091728737449553477177717115986308812131628405628571720572130414540357451⟩,
      ⟨.StructLiteral, 1569275434577421009645666462836317674350191283908460413456, 12259964326927110867199088286751103386986958876770828288, 730750818665451459101842416395034997975385374720, TOP⟩,
      ⟨.Template, 21267647932558653966460912964485513744, 12259964326927110867199088286751103350093470729351725056, 0, 4074071952668972172091728737449553477177717115986308812131628405628571720572130414540357451⟩,
      ⟨.UnaryOperator, 22835963104563006029491229477652835146609459728, 12259964326927110867199088286751103350093470729351725056, 22835963083295358096932575511191922182123945984, 441711766272532577544069053460982556175854468465873677685279319654400160⟩,
      ⟨.Unknown, 21267647932558653966460912964485513744, 12259964326927110867199088286751103350093470729351725056, 0, 4074071952668972172091728737449553477177717115986308812131628405628571720572130414540357451⟩],
    TOP, TOP⟩,
  ⟨false, [.nat, .bool (some false), .bool (some false), .bool (some false), .bool (some false)], TOP, TOP,
    .node [⟨.AccessOperator, 753586781748746837481184595521003855957341503488, 12259964326927110866866781287804874381867518964281638912, 753586781748746837481184595521003855957341503488, 3450873173395281893717377931138512726225554486085193277581262111899648⟩,
      ⟨.ArrayLiteral, 1569275434577421009624398814903759020383730370943974899712, 12259964326927110866866781287804874418761007111700742144, 730750818665451459101842416395034997975385374720, TOP⟩,
      ⟨.Asterisk, 1427247692705959881058285974061181154810134528, 12259964326927110866866781287804874381867518964281638912, 0, 16⟩,
      ⟨.BinaryOperator, 22838750676528271456971428369702915115831001088, 12259964326927110866866781287804874381867518964281638912, 22835963083295378379342179162862346129375232000, 289873346565203679072259746929259255970600437244991651642132782497397427⟩,
      ⟨.BetweenOperator, 137015778499855245613741613960878444981262483520, 12259964326927110866866781287804874381867518964281638912, 137015778499772168864005056718821957039994961984, 137438953472⟩,
      ⟨.BooleanLiteral, 0, 12259964326927110866866781287804874381867518964281638912, 0, 4074071952668972172091728737449553477177717115986308812131628405628571720572130414540357451⟩,
      ⟨.CallingFunction, 730750819048269203017541589180125584507428405248, 12259964326927110866866781288114359391688864033006420096, 730750818665451459101842567473868961656613109760, 4⟩,
      ⟨.CaseExpr, 18464758472219033600, 12259964326927110866866781287804874381867518964281639168, 18014398509482240, 140737488355328⟩,
      ⟨.DotOperator, 22835963083295378379342179162862346129375232000, 12259964326927110866866781287804874381867518964281638912, 22835963083295378379342179162862346129375232000, 256⟩,
      ⟨.EmptyStruct, 730750818665451459101842416358141509827966271488, 12259964326927110866866781287804874381867518964281638912, 730750818665451459101842416358141509827966271488, 4⟩,
      ⟨.FromStatement, 3213876088519442052721255087600528889877140717329315312697344, 12259964326927110866866781287804874381867518964281638912, 3213876088517980551083924184682325205044424434309659380154368, 316912650057057350374175801344⟩,
      ⟨.FunctionChain, 22835963083295378379342179162862346129375232000, 12259964326927110866866781287804874381867518964281638912, 22835963083295378379342179162862346129375232000, 256⟩,
      ⟨.GroupedExpr, 730750818665451459101842416376588253901675823104, 12259964326927110866866781287804874381867518964281638912, 730750818665451459101842416376588253901675823104, 4⟩,
      ⟨.GroupedStatement, 3213876088705783511480987745048493461770987959113090978545664, 12259964326927110866866781287804874381867518964281638912, 187802960397021024989173501004042368025787331772416, 4⟩,
      ⟨.Identifier, 0, 12259964326927110866866781287804874381867518964281638912, 0, 4074071952668972172091728737449553477177717115986308812131628405628571720572130414540357451⟩,
      ⟨.IntervalLiteral, 9194973245195333150150082162901855120159178944250118144, 12259964326927110866866781287804874381867518964281638912, 18446744211148505088, 83076749736557242056487941267521536⟩,
      ⟨.InOperator, 22835963083378455129078736404918834070642753536, 12259964326927110866866781287804874381867518964281638912, 22835963083295378379342179162862346129375232000, 649037107316853453566312041152512⟩,
      ⟨.IsDistinctFromOperator, 22835963083378455129078774183850732212176551936, 12259964326927110866866781287804874381867518964281638912, 22835963083295378379342216941794244270909030400, 332306998946228968225951765070086144⟩,
      ⟨.NumericLiteral, 0, 12259964326927110866866781287804874381867518964281638912, 0, 4074071952668972172091728737449553477177717115986308812131628405628571720572130414540357451⟩,
      ⟨.NullLiteral, 0, 12259964326927110866866781287804874381867518964281638912, 0, 4074071952668972172091728737449553477177717115986308812131628405628571720572130414540357451⟩,
      ⟨.Parameter, 0, 12259964326927110866866781287804874381867518964281638912, 0, 4074071952668972172091728737449553477177717115986308812131628405628571720572130414540357451⟩,
      ⟨.PipeStatement, 3213876088519464888684338382978908232056285132931370978377728, 12259964326927110866866781287804874381867518964281638912, 22835963083295378379342179162862346129375232000, 110427941548649020598956093796432407239217743554726184882600387580788736⟩,
      ⟨.RangeLiteral, 1569275433846670190958947355801916604025588861116008628224, 12259964326927110866866781287804874381867518964281638912, 1569275433846670190958947355801916604025588861116008628224, TOP⟩,
      ⟨.SelectStatement, 4419079621712223259134234864223355865086988258488984832835584, 12259964326927110866866781287804874418761007111700743168, 36893488147419103232, 4074071952668972172536028658525407501629507442849087873090724510087241301207278096838819835⟩,
      ⟨.SetOperator, 3213876088518003387047050020629996161480936082034306685345792, 12259964326927110866866781287804874381867518964281638912, 22835963083295378379342179162862416498119409664, TOP⟩,
      ⟨.StringLiteral, 0, 12259964326927110866866781287804874381867518964281638912, 0, 4074071952668972172091728737449553477177717115986308812131628405628571720572130414540357451⟩,
      ⟨.StructLiteral, 1569275434577421009624398814903759020383730370943974899712, 12259964326927110866866781287804874418761007111700742144, 730750818665451459101842416395034997975385374720, TOP⟩,
      ⟨.Template, 0, 12259964326927110866866781287804874381867518964281638912, 0, 4074071952668972172091728737449553477177717115986308812131628405628571720572130414540357451⟩,
      ⟨.UnaryOperator, 22835963083295358096932575511191922182123945984, 12259964326927110866866781287804874381867518964281638912, 22835963083295358096932575511191922182123945984, 441711766272532577544069053460982556175854468465873677685279319654400160⟩,
      ⟨.Unknown, 0, 12259964326927110866866781287804874381867518964281638912, 0, 4074071952668972172091728737449553477177717115986308812131628405628571720572130414540357451⟩],
    TOP, TOP⟩,
  ⟨false, [.nat, .bool (some true), .bool (some false), .bool (some false), .bool (some false)], TOP, TOP,
    .node [⟨.AccessOperator, 753586781748746837481184595521003855957341504016, 12259964326927110866866781287804874381867518964281638912, 753586781748746837481184595521003855957341503488, 3450873173395281893717377931138512726225554486085193277581262111899648⟩,
      ⟨.ArrayLiteral, 1569275434577421009624398814903759020383730370943974900240, 12259964326927110866866781287804874418761007111700742144, 730750818665451459101842416395034997975385374720, TOP⟩,
      ⟨.Asterisk, 1427247692705959881058285974061181154810135056, 12259964326927110866866781287804874381867518964281638912, 0, 16⟩,
      ⟨.BinaryOperator, 22838750676528271456971428369702915115831001616, 12259964326927110866866781287804874381867518964281638912, 22835963083295378379342179162862346129375232000, 289873346565203679072259746929259255970600437244991651642132782497397427⟩,
      ⟨.BetweenOperator, 137015778499855245613741613960878444981262484048, 12259964326927110866866781287804874381867518964281638912, 137015778499772168864005056718821957039994961984, 137438953472⟩,
      ⟨.BooleanLiteral, 528, 12259964326927110866866781287804874381867518964281638912, 0, 4074071952668972172091728737449553477177717115986308812131628405628571720572130414540357451⟩,
      ⟨.CallingFunction, 730750819048269203017541589180125584507428405776, 12259964326927110866866781288114359391688864033006420096, 730750818665451459101842567473868961656613109760, 4⟩,
      ⟨.CaseExpr, 18464758472219034128, 12259964326927110866866781287804874381867518964281639168, 18014398509482240, 140737488355328⟩,
      ⟨.DotOperator, 22835963083295378379342179162862346129375232528, 12259964326927110866866781287804874381867518964281638912, 22835963083295378379342179162862346129375232000, 256⟩,
      ⟨.EmptyStruct, 730750818665451459101842416358141509827966272016, 12259964326927110866866781287804874381867518964281638912, 730750818665451459101842416358141509827966271488, 4⟩,
      ⟨.FromStatement, 3213876088519442052721255087600528889877140717329315312697872, 12259964326927110866866781287804874381867518964281638912, 3213876088517980551083924184682325205044424434309659380154368, 316912650057057350374175801344⟩,
      ⟨.FunctionChain, 22835963083295378379342179162862346129375232528, 12259964326927110866866781287804874381867518964281638912, 22835963083295378379342179162862346129375232000, 256⟩,
      ⟨.GroupedExpr, 730750818665451459101842416376588253901675823632, 12259964326927110866866781287804874381867518964281638912, 730750818665451459101842416376588253901675823104, 4⟩,
      ⟨.GroupedStatement, 3213876088705783511480987745048493461770987959113090978546192, 12259964326927110866866781287804874381867518964281638912, 187802960397021024989173501004042368025787331772416, 4⟩,
      ⟨.Identifier, 528, 12259964326927110866866781287804874381867518964281638912, 0, 4074071952668972172091728737449553477177717115986308812131628405628571720572130414540357451⟩,
      ⟨.IntervalLiteral, 9194973245195333150150082162901855120159178944250118672, 12259964326927110866866781287804874381867518964281638912, 18446744211148505088, 83076749736557242056487941267521536⟩,
      ⟨.InOperator, 22835963083378455129078736404918834070642754064, 12259964326927110866866781287804874381867518964281638912, 22835963083295378379342179162862346129375232000, 649037107316853453566312041152512⟩,
      ⟨.IsDistinctFromOperator, 22835963083378455129078774183850732212176552464, 12259964326927110866866781287804874381867518964281638912, 22835963083295378379342216941794244270909030400, 332306998946228968225951765070086144⟩,
      ⟨.NumericLiteral, 528, 12259964326927110866866781287804874381867518964281638912, 0, 4074071952668972172091728737449553477177717115986308812131628405628571720572130414540357451⟩,
      ⟨.NullLiteral, 528, 12259964326927110866866781287804874381867518964281638912, 0, 4074071952668972172091728737449553477177717115986308812131628405628571720572130414540357451⟩,
      ⟨.Parameter, 528, 12259964326927110866866781287804874381867518964281638912, 0, 4074071952668972172091728737449553477177717115986308812131628405628571720572130414540357451⟩,
      ⟨.PipeStatement, 3213876088519464888684338382978908232056285132931370978378256, 12259964326927110866866781287804874381867518964281638912, 22835963083295378379342179162862346129375232000, 110427941548649020598956093796432407239217743554726184882600387580788736⟩,
      ⟨.RangeLiteral, 1569275433846670190958947355801916604025588861116008628752, 12259964326927110866866781287804874381867518964281638912, 1569275433846670190958947355801916604025588861116008628224, TOP⟩,
      ⟨.SelectStatement, 4419079621712223259134234864223355865086988258488984832836112, 12259964326927110866866781287804874418761007111700743168, 36893488147419103232, 4074071952668972172536028658525407501629507442849087873090724510087241301207278096838819835⟩,
      ⟨.SetOperator, 3213876088518003387047050020629996161480936082034306685346320, 12259964326927110866866781287804874381867518964281638912, 22835963083295378379342179162862416498119409664, TOP⟩,
      ⟨.StringLiteral, 528, 12259964326927110866866781287804874381867518964281638912, 0, 4074071952668972172091728737449553477177717115986308812131628405628571720572130414540357451⟩,
      ⟨.StructLiteral, 1569275434577421009624398814903759020383730370943974900240, 12259964326927110866866781287804874418761007111700742144, 730750818665451459101842416395034997975385374720, TOP⟩,
      ⟨.Template, 528, 12259964326927110866866781287804874381867518964281638912, 0, 4074071952668972172091728737449553477177717115986308812131628405628571720572130414540357451⟩,
      ⟨.UnaryOperator, 22835963083295358096932575511191922182123946512, 12259964326927110866866781287804874381867518964281638912, 22835963083295358096932575511191922182123945984, 441711766272532577544069053460982556175854468465873677685279319654400160⟩,
      ⟨.Unknown, 528, 12259964326927110866866781287804874381867518964281638912, 0, 4074071952668972172091728737449553477177717115986308812131628405628571720572130414540357451⟩],
    TOP, TOP⟩,
  ⟨false, [.nat, .bool (some false), .bool (some true), .bool (some true), .bool (some true)], TOP, TOP,
    .node [⟨.AccessOperator, 753586781770014485413743249487464768921827016704, 12259964326927110867199088286751103350093470729351725056, 753586781748746837481184595521003855957341503488, 3450873173395281893717377931138512726225554486085193277581262111899648⟩,
      ⟨.BinaryOperator, 22838750697795919389530082336163828080316514304, 12259964326927110867199088286751103350093470729351725056, 22835963083295378379342179162862346129375232000, 289873346565203679072259746929259255970600437244991651642132782497397427⟩,
      ⟨.BetweenOperator, 137015778521122893546300267927339357945747996736, 12259964326927110867199088286751103350093470729351725056, 137015778499772168864005056718821957039994961984, 137438953472⟩,
      ⟨.CallingFunction, 730750819069536850950100243146586497471913918464, 12259964326927110867199088287060588359914815798076506240, 730750818665451459101842567473868961656613109760, 4⟩,
      ⟨.DotOperator, 22835963104563026311900833129323259093860745216, 12259964326927110867199088286751103350093470729351725056, 22835963083295378379342179162862346129375232000, 256⟩,
      ⟨.FunctionChain, 22835963104563026311900833129323259093860745216, 12259964326927110867199088286751103350093470729351725056, 22835963083295378379342179162862346129375232000, 256⟩,
      ⟨.Identifier, 21267647932558653966460912964485513216, 12259964326927110867199088286751103350093470729351725056, 0, TOP⟩,
      ⟨.InOperator, 22835963104646103061637390371379747035128266752, 12259964326927110867199088286751103350093470729351725056, 22835963083295378379342179162862346129375232000, 649037107316853453566312041152512⟩,
      ⟨.IsDistinctFromOperator, 22835963104646103061637428150311645176662065152, 12259964326927110867199088286751103350093470729351725056, 22835963083295378379342216941794244270909030400, 332306998946228968225951765070086144⟩,
      ⟨.MultiTokenIdentifier, 21267647932558653966460912964485513216, 36779892980781332600932640721156050287993296684289359872, 24519928653854221733733552434404946937899825954937634816, TOP⟩],
    TOP, TOP⟩]

/-- Summaries of `parse_exprs`. -/
def parse_exprs : List Entry := [
  ⟨false, [.kws, .bool none, .bool (some true)], TOP, TOP,
    .vec [⟨.AccessOperator, 753586781770014485413743249487464768921961234960, 12259964326927110867199088286751103350093470729351725056, 753586781748746837481184595521003855957341503488, 3450873173395281893717377931138512726225554486085193277581262111899648⟩,
      ⟨.ArrayLiteral, 1569275434577421009645666462836317674350191283908594631184, 12259964326927110867199088286751103386986958876770828288, 730750818665451459101842416395034997975385374720, TOP⟩,
      ⟨.Asterisk, 1427247713973607813616939940522094119429866000, 12259964326927110867199088286751103350093470729351725056, 0, 16⟩,
      ⟨.BinaryOperator, 22838750697795919389530082336163828080450732560, 12259964326927110867199088286751103350093470729351725056, 22835963083295378379342179162862346129375232000, 289873346565203679072259746929259255970600437244991651642132782497397427⟩,
      ⟨.BetweenOperator, 137015778521122893546300267927339357945882214992, 12259964326927110867199088286751103350093470729351725056, 137015778499772168864005056718821957039994961984, 137438953472⟩,
      ⟨.BooleanLiteral, 21267647932558653966460912964619731472, 12259964326927110867199088286751103350093470729351725056, 0, 4074071952668972172091728737449553477177717115986308812131628405628571720572130414540357451⟩,
      ⟨.CallingFunction, 730750819069536850950100243146586497472048136720, 12259964326927110867199088287060588359914815798076506240, 730750818665451459101842567473868961656613109760, 4⟩,
      ⟨.CaseExpr, 21267647932558653984925671436838765072, 12259964326927110867199088286751103350093470729351725312, 18014398509482240, 140737488355328⟩,
      ⟨.DotOperator, 22835963104563026311900833129323259093994963472, 12259964326927110867199088286751103350093470729351725056, 22835963083295378379342179162862346129375232000, 256⟩,
      ⟨.EmptyStruct, 730750818686719107034401070324602422792586002960, 12259964326927110867199088286751103350093470729351725056, 730750818665451459101842416358141509827966271488, 4⟩,
      ⟨.FromStatement, 3213876088519442052721276355248461448531107178242279932428816, 12259964326927110867199088286751103350093470729351725056, 3213876088517980551083924184682325205044424434309659380154368, 316912650057057350374175801344⟩,
      ⟨.FunctionChain, 22835963104563026311900833129323259093994963472, 12259964326927110867199088286751103350093470729351725056, 22835963083295378379342179162862346129375232000, 256⟩,
      ⟨.GroupedExpr, 730750818686719107034401070343049166866295554576, 12259964326927110867199088286751103350093470729351725056, 730750818665451459101842416376588253901675823104, 4⟩,
      ⟨.GroupedStatement, 3213876088705783511481009012696426020424954420026055598277136, 12259964326927110867199088286751103350093470729351725056, 187802960397021024989173501004042368025787331772416, 4⟩,
      ⟨.Identifier, 21267647932558653966460912964619731472, 12259964326927110867199088286751103350093470729351725056, 0, 4074071952668972172091728737449553477177717115986308812131628405628571720572130414540357451⟩,
      ⟨.IntervalLiteral, 9194973245195333171417730095460509086620091908869849616, 12259964326927110867199088286751103350093470729351725056, 18446744211148505088, 83076749736557242056487941267521536⟩,
      ⟨.InOperator, 22835963104646103061637390371379747035262485008, 12259964326927110867199088286751103350093470729351725056, 22835963083295378379342179162862346129375232000, 649037107316853453566312041152512⟩,
      ⟨.IsDistinctFromOperator, 22835963104646103061637428150311645176796283408, 12259964326927110867199088286751103350093470729351725056, 22835963083295378379342216941794244270909030400, 332306998946228968225951765070086144⟩,
      ⟨.NumericLiteral, 21267647932558653966460912964619731472, 12259964326927110867199088286751103350093470729351725056, 0, 4074071952668972172091728737449553477177717115986308812131628405628571720572130414540357451⟩,
      ⟨.NullLiteral, 21267647932558653966460912964619731472, 12259964326927110867199088286751103350093470729351725056, 0, 4074071952668972172091728737449553477177717115986308812131628405628571720572130414540357451⟩,
      ⟨.Parameter, 21267647932558653966460912964619731472, 12259964326927110867199088286751103350093470729351725056, 0, 4074071952668972172091728737449553477177717115986308812131628405628571720572130414540357451⟩,
      ⟨.PipeStatement, 3213876088519464888684359650626840790710251593844335598109200, 12259964326927110867199088286751103350093470729351725056, 22835963083295378379342179162862346129375232000, 110427941548649020598956093796432407239217743554726184882600387580788736⟩,
      ⟨.RangeLiteral, 1569275433846670190980215003734475257992049774080628359696, 12259964326927110867199088286751103350093470729351725056, 1569275433846670190958947355801916604025588861116008628224, TOP⟩,
      ⟨.SelectStatement, 4419079621712223259134256131871288423740954719401949452567056, 12259964326927110867199088286751103386986958876770829312, 36893488147419103232, 4074071952668972172536028658525407501629507442849087873090724510087241301207278096838819835⟩,
      ⟨.SetOperator, 3213876088518003387047071288277928720134902542947271305077264, 12259964326927110867199088286751103350093470729351725056, 22835963083295378379342179162862416498119409664, TOP⟩,
      ⟨.StringLiteral, 21267647932558653966460912964619731472, 12259964326927110867199088286751103350093470729351725056, 0, 4074071952668972172091728737449553477177717115986308812131628405628571720572130414540357451⟩,
      ⟨.StructLiteral, 1569275434577421009645666462836317674350191283908594631184, 12259964326927110867199088286751103386986958876770828288, 730750818665451459101842416395034997975385374720, TOP⟩,
      ⟨.Template, 21267647932558653966460912964619731472, 12259964326927110867199088286751103350093470729351725056, 0, 4074071952668972172091728737449553477177717115986308812131628405628571720572130414540357451⟩,
      ⟨.UnaryOperator, 22835963104563006029491229477652835146743677456, 12259964326927110867199088286751103350093470729351725056, 22835963083295358096932575511191922182123945984, 441711766272532577544069053460982556175854468465873677685279319654400160⟩,
      ⟨.Unknown, 21267647932558653966460912964619731472, 12259964326927110867199088286751103350093470729351725056, 0, 4074071952668972172091728737449553477177717115986308812131628405628571720572130414540357451⟩] false true true,
    TOP, TOP⟩,
  ⟨false, [.kws, .bool (some true), .bool (some false)], TOP, TOP,
    .vec [⟨.AccessOperator, 753586781770014485413743249487464768921961234960, 12259964326927110867199088286751103350093470729351725056, 753586781748746837481184595521003855957341503488, 3450873173395281893717377931138512726225554486085193277581262111899648⟩,
      ⟨.ArrayLiteral, 1569275434577421009645666462836317674350191283908594631184, 12259964326927110867199088286751103386986958876770828288, 730750818665451459101842416395034997975385374720, TOP⟩,
      ⟨.Asterisk, 1427247713973607813616939940522094119429866000, 12259964326927110867199088286751103350093470729351725056, 0, 16⟩,
      ⟨.BinaryOperator, 22838750697795919389530082336163828080450732560, 12259964326927110867199088286751103350093470729351725056, 22835963083295378379342179162862346129375232000, 289873346565203679072259746929259255970600437244991651642132782497397427⟩,
      ⟨.BetweenOperator, 137015778521122893546300267927339357945882214992, 12259964326927110867199088286751103350093470729351725056, 137015778499772168864005056718821957039994961984, 137438953472⟩,
      ⟨.BooleanLiteral, 21267647932558653966460912964619731472, 12259964326927110867199088286751103350093470729351725056, 0, 4074071952668972172091728737449553477177717115986308812131628405628571720572130414540357451⟩,
      ⟨.CallingFunction, 730750819069536850950100243146586497472048136720, 12259964326927110867199088287060588359914815798076506240, 730750818665451459101842567473868961656613109760, 4⟩,
      ⟨.CaseExpr, 21267647932558653984925671436838765072, 12259964326927110867199088286751103350093470729351725312, 18014398509482240, 140737488355328⟩,
      ⟨.DotOperator, 22835963104563026311900833129323259093994963472, 12259964326927110867199088286751103350093470729351725056, 22835963083295378379342179162862346129375232000, 256⟩,
      ⟨.EmptyStruct, 730750818686719107034401070324602422792586002960, 12259964326927110867199088286751103350093470729351725056, 730750818665451459101842416358141509827966271488, 4⟩,
      ⟨.FromStatement, 3213876088519442052721276355248461448531107178242279932428816, 12259964326927110867199088286751103350093470729351725056, 3213876088517980551083924184682325205044424434309659380154368, 316912650057057350374175801344⟩,
      ⟨.FunctionChain, 22835963104563026311900833129323259093994963472, 12259964326927110867199088286751103350093470729351725056, 22835963083295378379342179162862346129375232000, 256⟩,
      ⟨.GroupedExpr, 730750818686719107034401070343049166866295554576, 12259964326927110867199088286751103350093470729351725056, 730750818665451459101842416376588253901675823104, 4⟩,
      ⟨.GroupedStatement, 3213876088705783511481009012696426020424954420026055598277136, 12259964326927110867199088286751103350093470729351725056, 187802960397021024989173501004042368025787331772416, 4⟩,
      ⟨.Identifier, 21267647932558653966460912964619731472, 12259964326927110867199088286751103350093470729351725056, 0, 4074071952668972172091728737449553477177717115986308812131628405628571720572130414540357451⟩,
      ⟨.IntervalLiteral, 9194973245195333171417730095460509086620091908869849616, 12259964326927110867199088286751103350093470729351725056, 18446744211148505088, 83076749736557242056487941267521536⟩,
      ⟨.InOperator, 22835963104646103061637390371379747035262485008, 12259964326927110867199088286751103350093470729351725056, 22835963083295378379342179162862346129375232000, 649037107316853453566312041152512⟩,
      ⟨.IsDistinctFromOperator, 22835963104646103061637428150311645176796283408, 12259964326927110867199088286751103350093470729351725056, 22835963083295378379342216941794244270909030400, 332306998946228968225951765070086144⟩,
      ⟨.NumericLiteral, 21267647932558653966460912964619731472, 12259964326927110867199088286751103350093470729351725056, 0, 4074071952668972172091728737449553477177717115986308812131628405628571720572130414540357451⟩,
      ⟨.NullLiteral, 21267647932558653966460912964619731472, 12259964326927110867199088286751103350093470729351725056, 0, 4074071952668972172091728737449553477177717115986308812131628405628571720572130414540357451⟩,
      ⟨.Parameter, 21267647932558653966460912964619731472, 12259964326927110867199088286751103350093470729351725056, 0, 4074071952668972172091728737449553477177717115986308812131628405628571720572130414540357451⟩,
      ⟨.PipeStatement, 3213876088519464888684359650626840790710251593844335598109200, 12259964326927110867199088286751103350093470729351725056, 22835963083295378379342179162862346129375232000, 110427941548649020598956093796432407239217743554726184882600387580788736⟩,
      ⟨.RangeLiteral, 1569275433846670190980215003734475257992049774080628359696, 12259964326927110867199088286751103350093470729351725056, 1569275433846670190958947355801916604025588861116008628224, TOP⟩,
      ⟨.SelectStatement, 4419079621712223259134256131871288423740954719401949452567056, 12259964326927110867199088286751103386986958876770829312, 36893488147419103232, 4074071952668972172536028658525407501629507442849087873090724510087241301207278096838819835⟩,
      ⟨.SetOperator, 3213876088518003387047071288277928720134902542947271305077264, 12259964326927110867199088286751103350093470729351725056, 22835963083295378379342179162862416498119409664, TOP⟩,
      ⟨.StringLiteral, 21267647932558653966460912964619731472, 12259964326927110867199088286751103350093470729351725056, 0, 4074071952668972172091728737449553477177717115986308812131628405628571720572130414540357451⟩,
      ⟨.StructLiteral, 1569275434577421009645666462836317674350191283908594631184, 12259964326927110867199088286751103386986958876770828288, 730750818665451459101842416395034997975385374720, TOP⟩,
      ⟨.Template, 21267647932558653966460912964619731472, 12259964326927110867199088286751103350093470729351725056, 0, 4074071952668972172091728737449553477177717115986308812131628405628571720572130414540357451⟩,
      ⟨.UnaryOperator, 22835963104563006029491229477652835146743677456, 12259964326927110867199088286751103350093470729351725056, 22835963083295358096932575511191922182123945984, 441711766272532577544069053460982556175854468465873677685279319654400160⟩,
      ⟨.Unknown, 21267647932558653966460912964619731472, 12259964326927110867199088286751103350093470729351725056, 0, 4074071952668972172091728737449553477177717115986308812131628405628571720572130414540357451⟩] false true true,
    TOP, TOP⟩]

/-- Summaries of `parse_grouped_exprs`. -/
def parse_grouped_exprs : List Entry := [
  ⟨false, [.bool (some true)], TOP, TOP,
    .node [⟨.GroupedExprs, 730750818665451459101842416358141509827966271488, 12259964326927110866866781287804874418761007111700742144, 730750818665451459101842416358141509827966271488, TOP⟩],
    TOP, TOP⟩,
  ⟨false, [.bool (some false)], TOP, TOP,
    .node [⟨.GroupedExprs, 730750818665451459101842416358141509827966271488, 12259964326927110866866781287804874418761007111700742144, 730750818665451459101842416358141509827966271488, TOP⟩],
    TOP, TOP⟩]

/-- Summaries of `parse_grouped_type_declaration_or_constraints`. -/
def parse_grouped_type_declaration_or_constraints : List Entry := [
  ⟨false, [.bool (some false), .bool (some true)], TOP, TOP,
    .node [⟨.GroupedTypeDeclarationOrConstraints, 730750818665451459101842416358141509827966271488, 12259964326927110866866781287804874381867519239159545856, 730750818665451459101842416358141509827966271488, TOP⟩],
    131080, TOP⟩,
  ⟨false, [.bool (some true), .bool (some false)], TOP, TOP,
    .node [⟨.GroupedTypeDeclarationOrConstraints, 730750818665451459101842416358141509827966271488, 12259964326927110866866781287804874381867519239159545856, 730750818665451459101842416358141509827966271488, TOP⟩],
    131080, TOP⟩,
  ⟨false, [.bool (some false), .bool (some false)], TOP, TOP,
    .node [⟨.GroupedTypeDeclarationOrConstraints, 730750818665451459101842416358141509827966271488, 12259964326927110866866781287804874381867519239159545856, 730750818665451459101842416358141509827966271488, TOP⟩],
    131080, TOP⟩]

/-- Summaries of `parse_identifier`. -/
def parse_identifier : List Entry := [
  ⟨false, [], TOP, 64,
    .node [⟨.Identifier, 0, 12259964326927110866866781287804874381867518964281638912, 0, TOP⟩],
    TOP, 64⟩,
  ⟨false, [], TOP, TOP,
    .node [⟨.DotOperator, 22835963083295378379342179162862346129375232000, 12259964326927110866866781287804874381867518964281638912, 22835963083295378379342179162862346129375232000, 256⟩,
      ⟨.Identifier, 0, 12259964326927110866866781287804874381867518964281638912, 0, TOP⟩,
      ⟨.MultiTokenIdentifier, 0, 36779892980781332600600333722209821319767344919219273728, 24519928653854221733733552434404946937899825954937634816, TOP⟩],
    TOP, 4074071952668972172536891376818756322102936787331872501272280898708762599526673412366794495⟩]

/-- Summaries of `parse_single_or_multi_token_identifier`. -/
def parse_single_or_multi_token_identifier : List Entry := [
  ⟨false, [], TOP, 64,
    .node [⟨.Identifier, 0, 12259964326927110866866781287804874381867518964281638912, 0, TOP⟩],
    TOP, 64⟩,
  ⟨false, [], TOP, TOP,
    .node [⟨.Identifier, 0, 12259964326927110866866781287804874381867518964281638912, 0, TOP⟩,
      ⟨.MultiTokenIdentifier, 0, 36779892980781332600600333722209821319767344919219273728, 24519928653854221733733552434404946937899825954937634816, TOP⟩],
    TOP, TOP⟩]

/-- Summaries of `parse_in_operator`. -/
def parse_in_operator : List Entry := [
  ⟨false, [.closed], 649037107316853453566312041152512, TOP,
    .node [⟨.InOperator, 22835963083295378379342179162862346129375232000, 12259964326927110866866781287804874381867518964281638912, 22835963083295378379342179162862346129375232000, 649037107316853453566312041152512⟩],
    TOP, TOP⟩]

/-- Summaries of `parse_is_distinct_from_operator`. -/
def parse_is_distinct_from_operator : List Entry := [
  ⟨false, [.closed], 332306998946228968225951765070086144, TOP,
    .node [⟨.IsDistinctFromOperator, 22835963083378455129078774183850732212176551936, 12259964326927110866866781287804874381867518964281638912, 22835963083295378379342216941794244270909030400, 332306998946228968225951765070086144⟩],
    TOP, TOP⟩]

/-- Summaries of `parse_keyword_with_grouped_exprs`. -/
def parse_keyword_with_grouped_exprs : List Entry := [
  ⟨false, [.bool (some false)], 356811923176489970264571492362373784095686656, TOP,
    .node [⟨.KeywordWithGroupedXXX, 604462909807314587353088, 12259964326927110866866781287804874381867518964281638912, 604462909807314587353088, 356811923176489970264571492362373784095686656⟩],
    TOP, TOP⟩,
  ⟨false, [.bool (some false)], 100433627766186892221372630771322662657637687111424552206336, TOP,
    .node [⟨.KeywordWithGroupedXXX, 604462909807314587353088, 12259964326927110866866781287804874381867518964281638912, 604462909807314587353088, 100433627766186892221372630771322662657637687111424552206336⟩],
    TOP, TOP⟩,
  ⟨false, [.bool (some false)], TOP, TOP,
    .node [⟨.KeywordWithGroupedXXX, 604462909807314587353088, 12259964326927110866866781287804874381867518964281638912, 604462909807314587353088, TOP⟩],
    TOP, TOP⟩,
  ⟨false, [.bool (some true)], TOP, TOP,
    .node [⟨.KeywordWithGroupedXXX, 604462909807314587353088, 12259964326927110866866781287804874381867518964281638912, 604462909807314587353088, TOP⟩],
    TOP, TOP⟩]

/-- Summaries of `parse_keyword_with_statements`. -/
def parse_keyword_with_statements : List Entry := [
  ⟨false, [.kws], TOP, TOP,
    .node [⟨.KeywordWithStatements, 0, 12260338471346267578013841431122049750320550883012640768, 374144419156711147060143317175368453031918731001856, TOP⟩],
    TOP, TOP⟩]

/-- Summaries of `parse_n_keywords`. -/
def parse_n_keywords : List Entry := [
  ⟨false, [.nat], TOP, TOP,
    .vec [⟨.Keyword, 0, 12259964326927110866866781287804874381867518964281638912, 0, TOP⟩] false true true,
    TOP, TOP⟩]

/-- Summaries of `parse_set_operator`. -/
def parse_set_operator : List Entry := [
  ⟨false, [.node [⟨.SelectStatement, 1205203533194242708050310679541030660042582270923399162232832, 12259964326927110866866781287804874418761007111700743168, 36893488147419103232, 110427941548655297700691480477196243028640951221142287238044851615301632⟩]], 105312291668557186709336009395503429984958296740068044545105854464, TOP,
    .node [⟨.SetOperator, 22835963083300570676200713990490947003038572544, 12259964326927110866866781287804874381867518964281638912, 22835963083295378379342179162862416498119409664, TOP⟩],
    TOP, TOP⟩,
  ⟨false, [.node [⟨.SelectStatement, 1205203533194242708050310679541030660042582270923399162232832, 12259964326927110866866781287804874418761007111700743168, 36893488147419103232, 4074071952668972172536028658525407501629507442849087873090724510087241301207278096838819835⟩]], 105312291668557186709336009395503429984958296740068044545105854464, TOP,
    .node [⟨.SetOperator, 22835963083300570676200713990490947003038572544, 12259964326927110866866781287804874381867518964281638912, 22835963083295378379342179162862416498119409664, TOP⟩],
    TOP, TOP⟩,
  ⟨false, [.node [⟨.GroupedStatement, 187802960397021024989173501004042368025787331772416, 12259964326927110866866781287804874381867518964281638912, 187802960397021024989173501004042368025787331772416, 4⟩]], 105312291668557186709336009395503429984958296740068044545105854464, TOP,
    .node [⟨.SetOperator, 22835963083300570676200713990490947003038572544, 12259964326927110866866781287804874381867518964281638912, 22835963083295378379342179162862416498119409664, TOP⟩],
    TOP, TOP⟩,
  ⟨false, [.node [⟨.GroupedStatement, 187802960397021024989173501004042368025787331772416, 12259964326927110866866781287804874381867518964281638912, 187802960397021024989173501004042368025787331772416, 4⟩,
      ⟨.SetOperator, 22835963083300570676200713990490947003038572544, 12259964326927110866866781287804874381867518964281638912, 22835963083295378379342179162862416498119409664, TOP⟩]], 105312291668557186709336009395503429984958296740068044545105854464, TOP,
    .node [⟨.SetOperator, 22835963083300570676200713990490947003038572544, 12259964326927110866866781287804874381867518964281638912, 22835963083295378379342179162862416498119409664, TOP⟩],
    TOP, TOP⟩,
  ⟨false, [.node [⟨.SelectStatement, 1205203533194242708050310679541030660042582270923399162232832, 12259964326927110866866781287804874418761007111700743168, 36893488147419103232, 110427941548655297700691480477196243028640951221142287238044851615301632⟩,
      ⟨.SetOperator, 22835963083300570676200713990490947003038572544, 12259964326927110866866781287804874381867518964281638912, 22835963083295378379342179162862416498119409664, TOP⟩]], 105312291668557186709336009395503429984958296740068044545105854464, TOP,
    .node [⟨.SetOperator, 22835963083300570676200713990490947003038572544, 12259964326927110866866781287804874381867518964281638912, 22835963083295378379342179162862416498119409664, TOP⟩],
    TOP, TOP⟩,
  ⟨false, [.node [⟨.SelectStatement, 1205203533194242708050310679541030660042582270923399162232832, 12259964326927110866866781287804874418761007111700743168, 36893488147419103232, 4074071952668972172536028658525407501629507442849087873090724510087241301207278096838819835⟩,
      ⟨.SetOperator, 22835963083300570676200713990490947003038572544, 12259964326927110866866781287804874381867518964281638912, 22835963083295378379342179162862416498119409664, TOP⟩]], 105312291668557186709336009395503429984958296740068044545105854464, TOP,
    .node [⟨.SetOperator, 22835963083300570676200713990490947003038572544, 12259964326927110866866781287804874381867518964281638912, 22835963083295378379342179162862416498119409664, TOP⟩],
    TOP, TOP⟩]

/-- Summaries of `parse_statement`. -/
def parse_statement : List Entry := [
  ⟨false, [.bool (some true)], TOP, TOP,
    .node [⟨.AlterColumnStatement, 102002903204418067324329603793718792766116854094366030954496, 12259964326927110866866781287882245634326232999902838784, 100433627766186892221372630771322682000450800945491347505152, 33554432⟩,
      ⟨.AlterColumnStatement, 102051943061725775767797070908728807461818488958249533964288, 12259964326927110866866781287882245634326232999902838784, 100433627766186892221372630781463886802276636157464975245312, 33554432⟩,
      ⟨.AlterBICapacityStatement, 100433627770571397133370656437916876162091265232700266512384, 12259964326927110866866781287804874381867518964281638912, 100433627769109895496039753519713191329374982213044333969408, 33554432⟩,
      ⟨.AlterBICapacityStatement, 100482667627879105576838123552926890857792900096583769522176, 12259964326927110866866781287804874381867518964281638912, 100433627769109895496039753529854396131200817425017961709568, 33554432⟩,
      ⟨.AlterModelStatement, 100433627770571397133370656437916876162091265232700266512384, 12259964326927110866866781287882245634322855231462834176, 100433627769109895496039753519713191329374982213044333969408, 33554432⟩,
      ⟨.AlterModelStatement, 100482667627879105576838123552926890857792900096583769522176, 12259964326927110866866781287882245634322855231462834176, 100433627769109895496039753529854396131200817425017961709568, 33554432⟩,
      ⟨.AlterOrganizationStatement, 100433627770571397133370656437916856819278151398633471213568, 12259964326927110866866781287804874381867518964281638912, 100433627769109895496039753519713171986561868378977538670592, 33554432⟩,
      ⟨.AlterOrganizationStatement, 100482667627879105576838123552926871514979786262516974223360, 12259964326927110866866781287804874381867518964281638912, 100433627769109895496039753529854376788387703590951166410752, 33554432⟩,
      ⟨.AlterProjectStatement, 100433627770571397133370656437916876162091265232700266512384, 12259964326927110866866781287804874381867518964281638912, 100433627769109895496039753519713171986561868378977538670592, 33554432⟩,
      ⟨.AlterProjectStatement, 100482667627879105576838123552926890857792900096583769522176, 12259964326927110866866781287804874381867518964281638912, 100433627769109895496039753529854376788387703590951166410752, 33554432⟩,
      ⟨.AlterReservationStatement, 100433627770571397133370656437916876162091265232700266512384, 12259964326927110866866781287804874381867518964281638912, 100433627769109895496039753519713191329374982213044333969408, 33554432⟩,
      ⟨.AlterReservationStatement, 100482667627879105576838123552926890857792900096583769522176, 12259964326927110866866781287804874381867518964281638912, 100433627769109895496039753529854396131200817425017961709568, 33554432⟩,
      ⟨.AlterSchemaStatement, 100433627770571397133370656437916876162091265515274754850817, 12259964326927110866866781287882245634322855231462834176, 100433627766186892221372630771322682000450800945491347505152, 33554432⟩,
      ⟨.AlterSchemaStatement, 100482667627879105576838123552926890857792900379158257860609, 12259964326927110866866781287882245634322855231462834176, 100433627766186892221372630781463886802276636157464975245312, 33554432⟩,
      ⟨.AlterTableStatement, 100436692761653485723010549621941441351950865085828241031200, 12259964327640734713219761228411388619048165749607628806, 100433627766186892221372630771322682000450800945491347505152, 33554432⟩,
      ⟨.AlterTableStatement, 100485732618961194166478016736951456047652499949711744040992, 12259964327640734713219761228411388619048165749607628806, 100433627766186892221372630781463886802276636157464975245312, 33554432⟩,
      ⟨.AlterVectorIndexStatement, 100433627767648393858707521373513721580785795386328121081856, 12259964326927110866866781287882245634322855231462834176, 100433627766186892221376618455310036748069512366672188538880, 33554432⟩,
      ⟨.AlterVectorIndexStatement, 100482667624956102302174988488523736276487430250211624091648, 12259964326927110866866781287882245634322855231462834176, 100433627766186892221376618465451241549895347578645816279040, 33554432⟩,
      ⟨.AlterViewStatement, 100433627770571397133370657086953983478944718799012307664928, 12259964326927110866866781287882245634322855231462834176, 100433627766186892221372630771322682000450800945491347505152, 33554432⟩,
      ⟨.AlterViewStatement, 100482667627879105576838124201963998174646353662895810674720, 12259964326927110866866781287882245634322855231462834176, 100433627766186892221372630781463886802276636157464975245312, 33554432⟩,
      ⟨.AssertStatement, 1461501637330902918203684832734729768127688606208, 12259964326927110866866781287804874381867518964281638912, 18446744073709551616, 2147483648⟩,
      ⟨.AssertStatement, 49039858769210080798370033213699528436364632011191616000, 12259964326927110866866781287804874381867518964281638912, 10141204801844281956047337291776, 2147483648⟩,
      ⟨.BeginStatement, 766249231934581760082091717259987308110403615533826048, 12260338471346267578013841431122049759543922919867416576, 18014398509481984, 68719476736⟩,
      ⟨.BeginStatement, 49806106539643025227549206727274683009745267499036835840, 12260338471346267578013841431122049759543922919867416576, 10141204801825853226372137222144, 68719476736⟩,
      ⟨.BreakContinueStatement, 1461501637330902919471335432944512421152635748352, 12259964326927110866866781287804874381867518964281638912, 0, 85735205728127073802439674974204592128⟩,
      ⟨.BreakContinueStatement, 49039858769210080798370034481350128646147285036138758144, 12259964326927110866866781287804874381867518964281638912, 10141204801825835211973627740160, 85735205728127073802439674974204592128⟩,
      ⟨.CallStatement, 1461502334229190372285658005707479039917229604864, 12259964326927110866866781287804874381867518964281638912, 696898287454081973172991196020261297061888, 17592186044416⟩,
      ⟨.CallStatement, 49039858769210777696657487295672701409113903800732614656, 12259964326927110866866781287804874381867518964281638912, 696898287464223177974817031232234924802048, 17592186044416⟩,
      ⟨.CaseStatement, 1461501637330902918203684832734729763729642094592, 12259964326927110866866781287804874381903547761300603136, 36028797018964224, 140737488355328⟩,
      ⟨.CaseStatement, 49039858769210080798370033213699528436364627613145104384, 12259964326927110866866781287804874381903547761300603136, 10141204801825871240770646704384, 140737488355328⟩,
      ⟨.CreateFunctionStatement, 100434022864166619733183382039421344064166246657860516708872, 12259964326927110877500605254238943870008656776979808256, 100433627766186892221372630771322682604913710752805934858240, 1152921504606846976⟩,
      ⟨.CreateFunctionStatement, 100483062721474328176650849154431358759867881521744019718664, 12259964326927110877500605254238943870008656776979808256, 100433627766186892221372630781463887406739545964779562598400, 1152921504606846976⟩,
      ⟨.CreateIndexStatement, 100433676406422884242048333389606555041258484587700303167488, 12259964326927110877500605254238943870008647980886786048, 100433675656672544280400783697663065363485692838149204475904, 1152921504606846976⟩,
      ⟨.CreateIndexStatement, 100482716263730592685515800504616569736960119451583806177280, 12259964326927110877500605254238943870008647980886786048, 100433675656672544280400783707804270165311528050122832216064, 1152921504606846976⟩,
      ⟨.CreateModelStatement, 101414424913802752284562521392652780179825980088573784752128, 12259964326927110877500605254238943870008647980886786048, 100433627766186892221372630771322682000450800945491347505152, 1152921504606846976⟩,
      ⟨.CreateModelStatement, 101463464771110460728029988507662794875527614952457287761920, 12259964326927110877500605254238943870008647980886786048, 100433627766186892221372630781463886802276636157464975245312, 1152921504606846976⟩,
      ⟨.CreateProcedureStatement, 6528185804990681705604912793498766876978148056427121940103680, 12259964326927110877500605254238943870008647980886786048, 100433627766186892221372630771322682604913710752805934858240, 1152921504606846976⟩,
      ⟨.CreateProcedureStatement, 6528234844847989414048380260613776891673849691291005443113472, 12259964326927110877500605254238943870008647980886786048, 100433627766186892221372630781463887406739545964779562598400, 1152921504606846976⟩,
      ⟨.CreateReservationStatement, 100433627767648393858708850601747190984201492206169033277952, 12259964326927110866866781287804874381867518964281638912, 100433627766186892221372630771322682000450800945491347505152, 1152921504606846976⟩,
      ⟨.CreateReservationStatement, 100482667624956102302176317716757205679903127070052536287744, 12259964326927110866866781287804874381867518964281638912, 100433627766186892221372630781463886802276636157464975245312, 1152921504606846976⟩,
      ⟨.CreateRowAccessPolicyStatement, 25111471934089956470392106533084455677591006441258218422272, 100445887730513819332250131376576901601507695759405438992384, 125542034707733615276717117692149132581913718151125177204736, 1152921504606846976⟩,
      ⟨.CreateRowAccessPolicyStatement, 25160511791397664913859573648094470373292641305141721432064, 100445887730513819332250131376576901601507695759405438992384, 125542034707733615276717117702290337383739553363098804944896, 1152921504606846976⟩,
      ⟨.CreateSchemaStatement, 6528185804803609496026557219966159916585544461301954092466176, 12259964326927110866866781287959616886778191498644029440, 100433627766186892221372630771322682000450800945491347505152, 1152921504606846976⟩,
      ⟨.CreateSchemaStatement, 6528234844660917204470024687081169931281246096165837595475968, 12259964326927110866866781287959616886778191498644029440, 100433627766186892221372630781463886802276636157464975245312, 1152921504606846976⟩,
      ⟨.CreateTableStatement, 32239194896106415160476995992830441630541410387268873503900160, 12259964326927110877500605254238943870008647980886786048, 100433627766186892221372630771322682000450800945491347505152, 1152921504606846976⟩,
      ⟨.CreateTableStatement, 32239243935963722868920463459945451645237112022132757006909952, 12259964326927110877500605254238943870008647980886786048, 100433627766186892221372630781463886802276636157464975245312, 1152921504606846976⟩,
      ⟨.CreateViewStatement, 100433627767648393869597886992016644644340140197517042647552, 12259964326927110877500605254238943870008647980886786048, 100433627766186892221372630771322682000450800945491347505152, 1152921504606846976⟩,
      ⟨.CreateViewStatement, 100482667624956102313065354107026659340041775061400545657344, 12259964326927110877500605254238943870008647980886786048, 100433627766186892221372630781463886802276636157464975245312, 1152921504606846976⟩,
      ⟨.DeclareStatement, 50216813884554947748017218303865016161535126575917964460032, 12259964326927110866866781287843560008095187097872236544, 38685626227668133590597632, 295147905179352825856⟩,
      ⟨.DeclareStatement, 50265853741862656191484685418875030857236761439801467469824, 12259964326927110866866781287843560008095187097872236544, 10141243487452062880107218337792, 295147905179352825856⟩,
      ⟨.DeleteStatement, 401734535011451896552334837852666634724626957371110087196672, 12259964326927110866866781287804874381867518964281638912, 401734535009990394915003934934462949854131742488496992944128, 2361183241434822606848⟩,
      ⟨.DeleteStatement, 401783574868759604995802304967676649420328592234993590206464, 12259964326927110866866781287804874381867518964281638912, 401734535009990394915003934944604154655957577700470620684288, 2361183241434822606848⟩,
      ⟨.DropStatement, 100433639740269806873461569491145408677757725336213831843840, 12259964326927110866866781287882245634322855231462834176, 100433627766186892221372630771322682000450800945491347505152, 37778931862957161709568⟩,
      ⟨.DropStatement, 100482679597577515316929036606155423373459360200097334853632, 12259964326927110866866781287882245634322855231462834176, 100433627766186892221372630781463886802276636157464975245312, 37778931862957161709568⟩,
      ⟨.DropRowAccessPolicyStatement, 1461501637332232146199489091402300660783008186368, 100445887730513819332239497552610544903272009966656015040512, 100433627766186892221373959999318447573510590918484832550912, 37778931862957161709568⟩,
      ⟨.DropRowAccessPolicyStatement, 49039858769210080799699261209503787103935524666511196160, 100445887730513819332239497552610544903272009966656015040512, 100433627766186892221373960009459652375336426130458460291072, 37778931862957161709568⟩,
      ⟨.ExecuteStatement, 25108406989776277087262953993572691154694970201037747519488, 12259964326927110866866781287804874381867518964281638912, 46768052394588893382518533616940699319127290937344, 38685626227668133590597632⟩,
      ⟨.ExecuteStatement, 25157446847083985530730421108582705850396605064921250529280, 12259964326927110866866781287804874381867518964281638912, 46768052394588893392659738418766534531100918677504, 38685626227668133590597632⟩,
      ⟨.ExportDataStatement, 6427752177037422603805184589194837234585019873379102754865664, 12259964326927110866866781287804874381867518964281638912, 5316911983139663491615228275481117184, 154742504910672534362390528⟩,
      ⟨.ExportDataStatement, 6427801216894730312248652056309847249280721508242986257875456, 12259964326927110866866781287804874381867518964281638912, 5316922124344465317450440249108857344, 154742504910672534362390528⟩,
      ⟨.ExportModelStatement, 100433627767648393858708850601509506496658699193388401426432, 12259964326927110866866781287804874381867518964281638912, 100433627766186892221372630771322682000450800945491347505152, 154742504910672534362390528⟩,
      ⟨.ExportModelStatement, 100482667624956102302176317716519521192360334057271904436224, 12259964326927110866866781287804874381867518964281638912, 100433627766186892221372630781463886802276636157464975245312, 154742504910672534362390528⟩,
      ⟨.ForStatement, 1461501637330902918204942115568682374735115321344, 12259964326927110866866781287804874381939576558319566848, 1257282852471412673220706304, 39614081257132168796771975168⟩,
      ⟨.ForStatement, 49039858769210080798370033214956811270317238618618331136, 12259964326927110866866781287804874381939576558319566848, 10142462084678306624646848446464, 39614081257132168796771975168⟩,
      ⟨.FromStatement, 3213876088519442052721255087600528889877140717329315312697344, 12259964326927110866866781287804874381867518964281638912, 18446744073709551616, 316912650057057350374175801344⟩,
      ⟨.FromStatement, 3213925128376749761164722554715538904572842352193198815707136, 12259964326927110866866781287804874381867518964281638912, 10141204801844281956047337291776, 316912650057057350374175801344⟩,
      ⟨.GrantStatement, 3064992546087910434360760015906281708437129300140883968, 12259964509614815533229646063265478471402896421273206784, 3064991267273977769820706587682053081689487101199908864, 2535301200456458802993406410752⟩,
      ⟨.GrantStatement, 52104849853796353901827875025920977410071993183643893760, 12259964509614815533229646063265478471402896421273206784, 3064991267273977769820716728886854907524699074827649024, 2535301200456458802993406410752⟩,
      ⟨.GroupedStatement, 3213876088707245013118318647966697146603704242132746911088640, 12259964326927110866866781287804874381867518964281638912, 187802960397021024989173501004042368025787331772416, 4⟩,
      ⟨.GroupedStatement, 3213925128564552721561786115081707161299405876996630414098432, 12259964326927110866866781287804874381867518964281638912, 187802960397021024999314705805868203237760959512576, 4⟩,
      ⟨.IfStatement, 766249231934581760082091717259987308096892816920150016, 12259964326927110866866781287804874382020641351612235776, 766247770432944429179173513575154591953484749436092416, 162259276829213363391578010288128⟩,
      ⟨.IfStatement, 49806106539643025227549206727274683009731756700423159808, 12259964326927110866866781287804874382020641351612235776, 766247770432944429179183654779956417788696723063832576, 162259276829213363391578010288128⟩,
      ⟨.InsertStatement, 191563404109873438197711611789182307084488643851583488, 12259964326927110866866781287804874381867518964281638912, 9903520314283042199192993792, 20769187434139310514121985316880384⟩,
      ⟨.InsertStatement, 49231420711818316905664826621803878008719352527354593280, 12259964326927110866866781287804874381867518964281638912, 10151108322140118254172820733952, 20769187434139310514121985316880384⟩,
      ⟨.LoadStatement, 28924884796663286461404904047180287281077912043523444706902016, 12259964326927110866866781287804874381867518964281638912, 19826497368771317729731805184, 1361129467683753853853498429727072845824⟩,
      ⟨.LoadStatement, 28924933836520594169848371514295297295773613678387328209911808, 12259964326927110866866781287804874381867518964281638912, 10161031299194606529703359545344, 1361129467683753853853498429727072845824⟩,
      ⟨.LoopStatement, 1461501637330902918203684832716283019655932542976, 12260338471346267578013841431122049750608781259164352512, 374144419156711147060143317175368741262294882713600, TOP⟩,
      ⟨.LoopStatement, 49039858769210080798370033213699528417917883539435552768, 12260338471346267578013841431122049750608781259164352512, 374144419156711147070284521977194576474268510453760, TOP⟩,
      ⟨.MergeStatement, 25108430888251050722188801688222241677208168731769521045504, 200879515496700711553612128323933130189657241741813386051584, 225975686419163333527603160312644075119138693850564306927616, 87112285931760246646623899502532662132736⟩,
      ⟨.MergeStatement, 25157470745558759165656268803232256372909803595653024055296, 200879515496700711553612128323933130189657241741813386051584, 225975686419163333527603160322785279920964529062537934667776, 87112285931760246646623899502532662132736⟩,
      ⟨.PipeStatement, 3213876088519464888684338382978908232056285132931370978377728, 12259964326927110866866781287804874381867518964281638912, 22835963083295378379342179162862346129375232000, 110427941548649020598956093796432407239217743554726184882600387580788736⟩,
      ⟨.PipeStatement, 3213925128376772597127805850093918246751986767795254481387520, 12259964326927110866866781287804874381867518964281638912, 22835963083295388520546980988697558103002972160, 110427941548649020598956093796432407239217743554726184882600387580788736⟩,
      ⟨.RaiseStatement, 25108406943008224692674060611034350497125704797512070594560, 12259964326927110866866781287804874381867518964281638912, 0, 374144419156711147060143317175368453031918731001856⟩,
      ⟨.RaiseStatement, 25157446800315933136141527726044365192827339661395573604352, 12259964326927110866866781287804874381867518964281638912, 10141204801825835211973627740160, 374144419156711147060143317175368453031918731001856⟩,
      ⟨.RepeatStatement, 12554203472234863165002481764619017664920993908584001568768, 12260338471346267578013841431122049750897011635316064256, 12554203844917780684382725906558650007573740381599103451136, TOP⟩,
      ⟨.RepeatStatement, 12603243329542571608469948879629032360622628772467504578560, 12260338471346267578013841431122049750897011635316064256, 12554203844917780684382725916699854809399575593572731191296, TOP⟩,
      ⟨.RevokeStatement, 1464356132717644065961605701120131514012935389184, 12259964509614815533229646063265478471402896421273206784, 185542200053104012533381472493383871813994414080, 12259964326927110866866776217202473468949912977468817408⟩,
      ⟨.RevokeStatement, 49039858772064576185111180971620396821766377896438398976, 12259964509614815533229646063265478471402896421273206784, 185542200053104022674586274319219083787622154240, 12259964326927110866866776217202473468949912977468817408⟩,
      ⟨.SelectStatement, 4419079621713684760771565767141559549919704541508640765378560, 12259964326927110866866781287804874418761007111700743168, 36893488147419103232, 4074071952668972172536028658525407501629507442849087873090724510087241301207278096838819835⟩,
      ⟨.SelectStatement, 4419128661570992469215033234256569564615406176372524268388352, 12259964326927110866866781287804874418761007111700743168, 10141204801862728700121046843392, 4074071952668972172536028658525407501629507442849087873090724510087241301207278096838819835⟩,
      ⟨.SetOperator, 3213876088519464888684380923548199846313652365053962617888768, 12259964326927110866866781287804874381867518964281638912, 22835963083295378379342179162862416498119409664, TOP⟩,
      ⟨.SetOperator, 3213925128376772597127848390663209861009353999917846120898560, 12259964326927110866866781287804874381867518964281638912, 22835963083295388520546980988697628471747149824, TOP⟩,
      ⟨.SetStatement, 1461501637330902918203684832734729763729642094592, 12259964326927110866866781287804874381867518964281638912, 18446744073709551616, 12554203470773361527671578846415332832204710888928069025792⟩,
      ⟨.SetStatement, 49039858769210080798370033213699528436364627613145104384, 12259964326927110866866781287804874381867518964281638912, 10141204801844281956047337291776, 12554203470773361527671578846415332832204710888928069025792⟩,
      ⟨.SingleTokenStatement, 1461501637330902918203684832716283019655932542976, 12259964326927110866866781287804874381867518964281638912, 0, 3064991081731777716716694054300618367237478244367204352⟩,
      ⟨.SingleTokenStatement, 49039858769210080798370033213699528417917883539435552768, 12259964326927110866866781287804874381867518964281638912, 10141204801825835211973627740160, 3064991081731777716716694054300618367237478244367204352⟩,
      ⟨.TransactionStatement, 392318859923169185070639757154163983722680234934934700032, 12259964326927110866866781287804874381867518964281638912, 0, 49039857307708443467467104868809893875808659177849487360⟩,
      ⟨.TransactionStatement, 441358717230877628538106872164178679424315098818437709824, 12259964326927110866866781287804874381867518964281638912, 10141204801825835211973627740160, 49039857307708443467467104868809893875808659177849487360⟩,
      ⟨.TruncateStatement, 35919325740681601020691962133668087774083854108721152, 12259964326927110866866781287804874381867518964281638912, 35917864239044270117773758448835371491064198176178176, 6582018229284824168619876730229402019930943462534319453394436096⟩,
      ⟨.TruncateStatement, 49075776633449125068487806972148363789408947737611730944, 12259964326927110866866781287804874381867518964281638912, 35917864239044270117783899653637197326276171803918336, 6582018229284824168619876730229402019930943462534319453394436096⟩,
      ⟨.UndropStatement, 100433627767648393858703533689526366833167083965147280048128, 12259964326927110866866781287959616886778191498644029440, 100433627766186892221372630771322682000450800945491347505152, 52656145834278593348959013841835216159447547700274555627155488768⟩,
      ⟨.UndropStatement, 100482667624956102302171000804536381528868718829030783057920, 12259964326927110866866781287959616886778191498644029440, 100433627766186892221372630781463886802276636157464975245312, 52656145834278593348959013841835216159447547700274555627155488768⟩,
      ⟨.UpdateStatement, 401734535014374899826996643689074004390059523410421952282624, 12259964326927110866866781287804874381867518964281638912, 2923003274661805836407369665432566039311865085952, 1684996666696914987166688442938726917102321526408785780068975640576⟩,
      ⟨.UpdateStatement, 401783574871682608270464110804084019085761158274305455292416, 12259964326927110866866781287804874381867518964281638912, 2923003274661805846548574467258401251285492826112, 1684996666696914987166688442938726917102321526408785780068975640576⟩,
      ⟨.WhileStatement, 1461501637330902918203684832716283160393689333760, 12259964326927110866866781287804874383020440468888485888, 1153062242363637760, 215679573337205118357336120696157045389097155380324579848828881993728⟩,
      ⟨.WhileStatement, 49039858769210080798370033213699528417918024277192343552, 12259964326927110866866781287804874383020440468888485888, 10141204801826988274215991377920, 215679573337205118357336120696157045389097155380324579848828881993728⟩],
    TOP, TOP⟩,
  ⟨false, [.bool (some false)], TOP, TOP,
    .node [⟨.AlterColumnStatement, 102002903202956565686998700875515107933400571074710098411520, 12259964326927110866866781287882245634326232999902838784, 100433627766186892221372630771322682000450800945491347505152, 33554432⟩,
      ⟨.AlterColumnStatement, 102051943060264274130466167990525122629102205938593601421312, 12259964326927110866866781287882245634326232999902838784, 100433627766186892221372630781463886802276636157464975245312, 33554432⟩,
      ⟨.AlterBICapacityStatement, 100433627769109895496039753519713191329374982213044333969408, 12259964326927110866866781287804874381867518964281638912, 100433627769109895496039753519713191329374982213044333969408, 33554432⟩,
      ⟨.AlterBICapacityStatement, 100482667626417603939507220634723206025076617076927836979200, 12259964326927110866866781287804874381867518964281638912, 100433627769109895496039753529854396131200817425017961709568, 33554432⟩,
      ⟨.AlterModelStatement, 100433627769109895496039753519713191329374982213044333969408, 12259964326927110866866781287882245634322855231462834176, 100433627769109895496039753519713191329374982213044333969408, 33554432⟩,
      ⟨.AlterModelStatement, 100482667626417603939507220634723206025076617076927836979200, 12259964326927110866866781287882245634322855231462834176, 100433627769109895496039753529854396131200817425017961709568, 33554432⟩,
      ⟨.AlterOrganizationStatement, 100433627769109895496039753519713171986561868378977538670592, 12259964326927110866866781287804874381867518964281638912, 100433627769109895496039753519713171986561868378977538670592, 33554432⟩,
      ⟨.AlterOrganizationStatement, 100482667626417603939507220634723186682263503242861041680384, 12259964326927110866866781287804874381867518964281638912, 100433627769109895496039753529854376788387703590951166410752, 33554432⟩,
      ⟨.AlterProjectStatement, 100433627769109895496039753519713191329374982213044333969408, 12259964326927110866866781287804874381867518964281638912, 100433627769109895496039753519713171986561868378977538670592, 33554432⟩,
      ⟨.AlterProjectStatement, 100482667626417603939507220634723206025076617076927836979200, 12259964326927110866866781287804874381867518964281638912, 100433627769109895496039753529854376788387703590951166410752, 33554432⟩,
      ⟨.AlterReservationStatement, 100433627769109895496039753519713191329374982213044333969408, 12259964326927110866866781287804874381867518964281638912, 100433627769109895496039753519713191329374982213044333969408, 33554432⟩,
      ⟨.AlterReservationStatement, 100482667626417603939507220634723206025076617076927836979200, 12259964326927110866866781287804874381867518964281638912, 100433627769109895496039753529854396131200817425017961709568, 33554432⟩,
      ⟨.AlterSchemaStatement, 100433627769109895496039753519713191329374982495618822307841, 12259964326927110866866781287882245634322855231462834176, 100433627766186892221372630771322682000450800945491347505152, 33554432⟩,
      ⟨.AlterSchemaStatement, 100482667626417603939507220634723206025076617359502325317633, 12259964326927110866866781287882245634322855231462834176, 100433627766186892221372630781463886802276636157464975245312, 33554432⟩,
      ⟨.AlterTableStatement, 100436692760191984085679646703737756519234582066172308488224, 12259964327640734713219761228411388619048165749607628806, 100433627766186892221372630771322682000450800945491347505152, 33554432⟩,
      ⟨.AlterTableStatement, 100485732617499692529147113818747771214936216930055811498016, 12259964327640734713219761228411388619048165749607628806, 100433627766186892221372630781463886802276636157464975245312, 33554432⟩,
      ⟨.AlterVectorIndexStatement, 100433627766186892221376618455310036748069512366672188538880, 12259964326927110866866781287882245634322855231462834176, 100433627766186892221376618455310036748069512366672188538880, 33554432⟩,
      ⟨.AlterVectorIndexStatement, 100482667623494600664844085570320051443771147230555691548672, 12259964326927110866866781287882245634322855231462834176, 100433627766186892221376618465451241549895347578645816279040, 33554432⟩,
      ⟨.AlterViewStatement, 100433627769109895496039754168750298646228435779356375121952, 12259964326927110866866781287882245634322855231462834176, 100433627766186892221372630771322682000450800945491347505152, 33554432⟩,
      ⟨.AlterViewStatement, 100482667626417603939507221283760313341930070643239878131744, 12259964326927110866866781287882245634322855231462834176, 100433627766186892221372630781463886802276636157464975245312, 33554432⟩,
      ⟨.AssertStatement, 18446748471756063232, 12259964326927110866866781287804874381867518964281638912, 18446744073709551616, 2147483648⟩,
      ⟨.AssertStatement, 49039857307708443467467115010014695720081612355259073024, 12259964326927110866866781287804874381867518964281638912, 10141204801844281956047337291776, 2147483648⟩,
      ⟨.BeginStatement, 766247770432944429179173513575154591827383959601283072, 12260338471346267578013841431122049759543922919867416576, 18014398509481984, 68719476736⟩,
      ⟨.BeginStatement, 49806105078141387896646288523589850293462247843104292864, 12260338471346267578013841431122049759543922919867416576, 10141204801825853226372137222144, 68719476736⟩,
      ⟨.BreakContinueStatement, 1267650600228229401496703205376, 12259964326927110866866781287804874381867518964281638912, 0, 85735205728127073802439674974204592128⟩,
      ⟨.BreakContinueStatement, 49039857307708443467467116277665295929864265380206215168, 12259964326927110866866781287804874381867518964281638912, 10141204801825835211973627740160, 85735205728127073802439674974204592128⟩,
      ⟨.CallStatement, 696898287454081973172991196020261297061888, 12259964326927110866866781287804874381867518964281638912, 696898287454081973172991196020261297061888, 17592186044416⟩,
      ⟨.CallStatement, 49039857307709140365754569091987868692830884144800071680, 12259964326927110866866781287804874381867518964281638912, 696898287464223177974817031232234924802048, 17592186044416⟩,
      ⟨.CaseStatement, 18446744073709551616, 12259964326927110866866781287804874381903547761300603136, 36028797018964224, 140737488355328⟩,
      ⟨.CaseStatement, 49039857307708443467467115010014695720081607957212561408, 12259964326927110866866781287804874381903547761300603136, 10141204801825871240770646704384, 140737488355328⟩,
      ⟨.CreateFunctionStatement, 100434022862705118095852479121217659231449963638204584165896, 12259964326927110877500605254238943870008656776979808256, 100433627766186892221372630771322682604913710752805934858240, 1152921504606846976⟩,
      ⟨.CreateFunctionStatement, 100483062720012826539319946236227673927151598502088087175688, 12259964326927110877500605254238943870008656776979808256, 100433627766186892221372630781463887406739545964779562598400, 1152921504606846976⟩,
      ⟨.CreateIndexStatement, 100433676404961382604717430471402870208542201568044370624512, 12259964326927110877500605254238943870008647980886786048, 100433675656672544280400783697663065363485692838149204475904, 1152921504606846976⟩,
      ⟨.CreateIndexStatement, 100482716262269091048184897586412884904243836431927873634304, 12259964326927110877500605254238943870008647980886786048, 100433675656672544280400783707804270165311528050122832216064, 1152921504606846976⟩,
      ⟨.CreateModelStatement, 101414424912341250647231618474449095347109697068917852209152, 12259964326927110877500605254238943870008647980886786048, 100433627766186892221372630771322682000450800945491347505152, 1152921504606846976⟩,
      ⟨.CreateModelStatement, 101463464769648959090699085589459110042811331932801355218944, 12259964326927110877500605254238943870008647980886786048, 100433627766186892221372630781463886802276636157464975245312, 1152921504606846976⟩,
      ⟨.CreateProcedureStatement, 6528185804989220203967581890580563192145431773407466007560704, 12259964326927110877500605254238943870008647980886786048, 100433627766186892221372630771322682604913710752805934858240, 1152921504606846976⟩,
      ⟨.CreateProcedureStatement, 6528234844846527912411049357695573206841133408271349510570496, 12259964326927110877500605254238943870008647980886786048, 100433627766186892221372630781463887406739545964779562598400, 1152921504606846976⟩,
      ⟨.CreateReservationStatement, 100433627766186892221377947683543506151485209186513100734976, 12259964326927110866866781287804874381867518964281638912, 100433627766186892221372630771322682000450800945491347505152, 1152921504606846976⟩,
      ⟨.CreateReservationStatement, 100482667623494600664845414798553520847186844050396603744768, 12259964326927110866866781287804874381867518964281638912, 100433627766186892221372630781463886802276636157464975245312, 1152921504606846976⟩,
      ⟨.CreateRowAccessPolicyStatement, 25111471932628454833061203614880770844874723421602285879296, 100445887730513819332250131376576901601507695759405438992384, 125542034707733615276717117692149132581913718151125177204736, 1152921504606846976⟩,
      ⟨.CreateRowAccessPolicyStatement, 25160511789936163276528670729890785540576358285485788889088, 100445887730513819332250131376576901601507695759405438992384, 125542034707733615276717117702290337383739553363098804944896, 1152921504606846976⟩,
      ⟨.CreateSchemaStatement, 6528185804802147994389226317047956231752828178282298159923200, 12259964326927110866866781287959616886778191498644029440, 100433627766186892221372630771322682000450800945491347505152, 1152921504606846976⟩,
      ⟨.CreateSchemaStatement, 6528234844659455702832693784162966246448529813146181662932992, 12259964326927110866866781287959616886778191498644029440, 100433627766186892221372630781463886802276636157464975245312, 1152921504606846976⟩,
      ⟨.CreateTableStatement, 32239194896104953658839665089912237945708694104249217571357184, 12259964326927110877500605254238943870008647980886786048, 100433627766186892221372630771322682000450800945491347505152, 1152921504606846976⟩,
      ⟨.CreateTableStatement, 32239243935962261367283132557027247960404395739113101074366976, 12259964326927110877500605254238943870008647980886786048, 100433627766186892221372630781463886802276636157464975245312, 1152921504606846976⟩,
      ⟨.CreateViewStatement, 100433627766186892232266984073812959811623857177861110104576, 12259964326927110877500605254238943870008647980886786048, 100433627766186892221372630771322682000450800945491347505152, 1152921504606846976⟩,
      ⟨.CreateViewStatement, 100482667623494600675734451188822974507325492041744613114368, 12259964326927110877500605254238943870008647980886786048, 100433627766186892221372630781463886802276636157464975245312, 1152921504606846976⟩,
      ⟨.DeclareStatement, 50216813883093446110686315385661331328818843556262031917056, 12259964326927110866866781287843560008095187097872236544, 38685626227668133590597632, 295147905179352825856⟩,
      ⟨.DeclareStatement, 50265853740401154554153782500671346024520478420145534926848, 12259964326927110866866781287843560008095187097872236544, 10141243487452062880107218337792, 295147905179352825856⟩,
      ⟨.DeleteStatement, 401734535009990394915003934934462949891910674351454154653696, 12259964326927110866866781287804874381867518964281638912, 401734535009990394915003934934462949854131742488496992944128, 2361183241434822606848⟩,
      ⟨.DeleteStatement, 401783574867298103358471402049472964587612309215337657663488, 12259964326927110866866781287804874381867518964281638912, 401734535009990394915003934944604154655957577700470620684288, 2361183241434822606848⟩,
      ⟨.DropStatement, 100433639738808305236130666572941723845041442316557899300864, 12259964326927110866866781287882245634322855231462834176, 100433627766186892221372630771322682000450800945491347505152, 37778931862957161709568⟩,
      ⟨.DropStatement, 100482679596116013679598133687951738540743077180441402310656, 12259964326927110866866781287882245634322855231462834176, 100433627766186892221372630781463886802276636157464975245312, 37778931862957161709568⟩,
      ⟨.DropRowAccessPolicyStatement, 1329227995804258686017641127075643392, 100445887730513819332239497552610544903272009966656015040512, 100433627766186892221373959999318447573510590918484832550912, 37778931862957161709568⟩,
      ⟨.DropRowAccessPolicyStatement, 49039857307708443468796343005818954387652505010578653184, 100445887730513819332239497552610544903272009966656015040512, 100433627766186892221373960009459652375336426130458460291072, 37778931862957161709568⟩,
      ⟨.ExecuteStatement, 25108406988314775449932051075369006321978687181381814976512, 12259964326927110866866781287804874381867518964281638912, 46768052394588893382518533616940699319127290937344, 38685626227668133590597632⟩,
      ⟨.ExecuteStatement, 25157446845622483893399518190379021017680322045265317986304, 12259964326927110866866781287804874381867518964281638912, 46768052394588893392659738418766534531100918677504, 38685626227668133590597632⟩,
      ⟨.ExportDataStatement, 6427752177035961102167853686276633549752303590359446822322688, 12259964326927110866866781287804874381867518964281638912, 5316911983139663491615228275481117184, 154742504910672534362390528⟩,
      ⟨.ExportDataStatement, 6427801216893268810611321153391643564448005225223330325332480, 12259964326927110866866781287804874381867518964281638912, 5316922124344465317450440249108857344, 154742504910672534362390528⟩,
      ⟨.ExportModelStatement, 100433627766186892221377947683305821663942416173732468883456, 12259964326927110866866781287804874381867518964281638912, 100433627766186892221372630771322682000450800945491347505152, 154742504910672534362390528⟩,
      ⟨.ExportModelStatement, 100482667623494600664845414798315836359644051037615971893248, 12259964326927110866866781287804874381867518964281638912, 100433627766186892221372630781463886802276636157464975245312, 154742504910672534362390528⟩,
      ⟨.ForStatement, 1257282852399355079182778368, 12259964326927110866866781287804874381939576558319566848, 1257282852471412673220706304, 39614081257132168796771975168⟩,
      ⟨.ForStatement, 49039857307708443467467115011271978554034218962685788160, 12259964326927110866866781287804874381939576558319566848, 10142462084678306624646848446464, 39614081257132168796771975168⟩,
      ⟨.FromStatement, 3213876088519442052721255087600528889877140717329315312697344, 12259964326927110866866781287804874381867518964281638912, 18446744073709551616, 316912650057057350374175801344⟩,
      ⟨.FromStatement, 3213925128376749761164722554715538904572842352193198815707136, 12259964326927110866866781287804874381867518964281638912, 10141204801844281956047337291776, 316912650057057350374175801344⟩,
      ⟨.GrantStatement, 3064991084586273103457841812221448992154109644208340992, 12259964509614815533229646063265478471402896421273206784, 3064991267273977769820706587682053081689487101199908864, 2535301200456458802993406410752⟩,
      ⟨.GrantStatement, 52104848392294716570924956822236144693788973527711350784, 12259964509614815533229646063265478471402896421273206784, 3064991267273977769820716728886854907524699074827649024, 2535301200456458802993406410752⟩,
      ⟨.GroupedStatement, 3213876088705783511480987745048493461770987959113090978545664, 12259964326927110866866781287804874381867518964281638912, 187802960397021024989173501004042368025787331772416, 4⟩,
      ⟨.GroupedStatement, 3213925128563091219924455212163503476466689593976974481555456, 12259964326927110866866781287804874381867518964281638912, 187802960397021024999314705805868203237760959512576, 4⟩,
      ⟨.IfStatement, 766247770432944429179173513575154591813873160987607040, 12259964326927110866866781287804874382020641351612235776, 766247770432944429179173513575154591953484749436092416, 162259276829213363391578010288128⟩,
      ⟨.IfStatement, 49806105078141387896646288523589850293448737044490616832, 12259964326927110866866781287804874382020641351612235776, 766247770432944429179183654779956417788696723063832576, 162259276829213363391578010288128⟩,
      ⟨.InsertStatement, 191561942608236107294793408104349590801468987919040512, 12259964326927110866866781287804874381867518964281638912, 9903520314283042199192993792, 20769187434139310514121985316880384⟩,
      ⟨.InsertStatement, 49231419250316679574761908418119045292436332871422050304, 12259964326927110866866781287804874381867518964281638912, 10151108322140118254172820733952, 20769187434139310514121985316880384⟩,
      ⟨.LoadStatement, 28924884796661824959767573144262083596245195760503788774359040, 12259964326927110866866781287804874381867518964281638912, 19826497368771317729731805184, 1361129467683753853853498429727072845824⟩,
      ⟨.LoadStatement, 28924933836519132668211040611377093610940897395367672277368832, 12259964326927110866866781287804874381867518964281638912, 10161031299194606529703359545344, 1361129467683753853853498429727072845824⟩,
      ⟨.LoopStatement, 0, 12260338471346267578013841431122049750608781259164352512, 374144419156711147060143317175368741262294882713600, TOP⟩,
      ⟨.LoopStatement, 49039857307708443467467115010014695701634863883503009792, 12260338471346267578013841431122049750608781259164352512, 374144419156711147070284521977194576474268510453760, TOP⟩,
      ⟨.MergeStatement, 25108430888251050722188801688222241677208168731769521045504, 200879515496700711553612128323933130189657241741813386051584, 225975686419163333527603160312644075119138693850564306927616, 87112285931760246646623899502532662132736⟩,
      ⟨.MergeStatement, 25157470745558759165656268803232256372909803595653024055296, 200879515496700711553612128323933130189657241741813386051584, 225975686419163333527603160322785279920964529062537934667776, 87112285931760246646623899502532662132736⟩,
      ⟨.PipeStatement, 3213876088519464888684338382978908232056285132931370978377728, 12259964326927110866866781287804874381867518964281638912, 22835963083295378379342179162862346129375232000, 110427941548649020598956093796432407239217743554726184882600387580788736⟩,
      ⟨.PipeStatement, 3213925128376772597127805850093918246751986767795254481387520, 12259964326927110866866781287804874381867518964281638912, 22835963083295388520546980988697558103002972160, 110427941548649020598956093796432407239217743554726184882600387580788736⟩,
      ⟨.RaiseStatement, 25108406941546723055343157692830665664409421777856138051584, 12259964326927110866866781287804874381867518964281638912, 0, 374144419156711147060143317175368453031918731001856⟩,
      ⟨.RaiseStatement, 25157446798854431498810624807840680360111056641739641061376, 12259964326927110866866781287804874381867518964281638912, 10141204801825835211973627740160, 374144419156711147060143317175368453031918731001856⟩,
      ⟨.RepeatStatement, 12554203470773361527671578846415332832204710888928069025792, 12260338471346267578013841431122049750897011635316064256, 12554203844917780684382725906558650007573740381599103451136, TOP⟩,
      ⟨.RepeatStatement, 12603243328081069971139045961425347527906345752811572035584, 12260338471346267578013841431122049750897011635316064256, 12554203844917780684382725916699854809399575593572731191296, TOP⟩,
      ⟨.RevokeStatement, 2854495386741147757920868403848494357002846208, 12259964509614815533229646063265478471402896421273206784, 185542200053104012533381472493383871813994414080, 12259964326927110866866776217202473468949912977468817408⟩,
      ⟨.RevokeStatement, 49039857310562938854208262767935564105483358240505856000, 12259964509614815533229646063265478471402896421273206784, 185542200053104022674586274319219083787622154240, 12259964326927110866866776217202473468949912977468817408⟩,
      ⟨.SelectStatement, 4419079621712223259134234864223355865086988258488984832835584, 12259964326927110866866781287804874418761007111700743168, 36893488147419103232, 4074071952668972172536028658525407501629507442849087873090724510087241301207278096838819835⟩,
      ⟨.SelectStatement, 4419128661569530967577702331338365879782689893352868335845376, 12259964326927110866866781287804874418761007111700743168, 10141204801862728700121046843392, 4074071952668972172536028658525407501629507442849087873090724510087241301207278096838819835⟩,
      ⟨.SetOperator, 3213876088518003387047050020629996161480936082034306685345792, 12259964326927110866866781287804874381867518964281638912, 22835963083295378379342179162862416498119409664, TOP⟩,
      ⟨.SetOperator, 3213925128375311095490517487745006176176637716898190188355584, 12259964326927110866866781287804874381867518964281638912, 22835963083295388520546980988697628471747149824, TOP⟩,
      ⟨.SetStatement, 18446744073709551616, 12259964326927110866866781287804874381867518964281638912, 18446744073709551616, 12554203470773361527671578846415332832204710888928069025792⟩,
      ⟨.SetStatement, 49039857307708443467467115010014695720081607957212561408, 12259964326927110866866781287804874381867518964281638912, 10141204801844281956047337291776, 12554203470773361527671578846415332832204710888928069025792⟩,
      ⟨.SingleTokenStatement, 0, 12259964326927110866866781287804874381867518964281638912, 0, 3064991081731777716716694054300618367237478244367204352⟩,
      ⟨.SingleTokenStatement, 49039857307708443467467115010014695701634863883503009792, 12259964326927110866866781287804874381867518964281638912, 10141204801825835211973627740160, 3064991081731777716716694054300618367237478244367204352⟩,
      ⟨.TransactionStatement, 392318858461667547739736838950479151006397215279002157056, 12259964326927110866866781287804874381867518964281638912, 0, 49039857307708443467467104868809893875808659177849487360⟩,
      ⟨.TransactionStatement, 441358715769375991207203953960493846708032079162505166848, 12259964326927110866866781287804874381867518964281638912, 10141204801825835211973627740160, 49039857307708443467467104868809893875808659177849487360⟩,
      ⟨.TruncateStatement, 35917864239044270117773758448835371491064198176178176, 12259964326927110866866781287804874381867518964281638912, 35917864239044270117773758448835371491064198176178176, 6582018229284824168619876730229402019930943462534319453394436096⟩,
      ⟨.TruncateStatement, 49075775171947487737584888768463531073125928081679187968, 12259964326927110866866781287804874381867518964281638912, 35917864239044270117783899653637197326276171803918336, 6582018229284824168619876730229402019930943462534319453394436096⟩,
      ⟨.UndropStatement, 100433627766186892221372630771322682000450800945491347505152, 12259964326927110866866781287959616886778191498644029440, 100433627766186892221372630771322682000450800945491347505152, 52656145834278593348959013841835216159447547700274555627155488768⟩,
      ⟨.UndropStatement, 100482667623494600664840097886332696696152435809374850514944, 12259964326927110866866781287959616886778191498644029440, 100433627766186892221372630781463886802276636157464975245312, 52656145834278593348959013841835216159447547700274555627155488768⟩,
      ⟨.UpdateStatement, 401734535012913398189665740770870319557343240390766019739648, 12259964326927110866866781287804874381867518964281638912, 2923003274661805836407369665432566039311865085952, 1684996666696914987166688442938726917102321526408785780068975640576⟩,
      ⟨.UpdateStatement, 401783574870221106633133207885880334253044875254649522749440, 12259964326927110866866781287804874381867518964281638912, 2923003274661805846548574467258401251285492826112, 1684996666696914987166688442938726917102321526408785780068975640576⟩,
      ⟨.WhileStatement, 140737756790784, 12259964326927110866866781287804874383020440468888485888, 1153062242363637760, 215679573337205118357336120696157045389097155380324579848828881993728⟩,
      ⟨.WhileStatement, 49039857307708443467467115010014695701635004621259800576, 12259964326927110866866781287804874383020440468888485888, 10141204801826988274215991377920, 215679573337205118357336120696157045389097155380324579848828881993728⟩],
    TOP, TOP⟩]

/-- Summaries of `parse_table`. -/
def parse_table : List Entry := [
  ⟨false, [.bool (some true)], TOP, TOP,
    .node [⟨.AccessOperator, 12861781551589033776173580762060391196864721275526436660183568, 12259964326927110867199088286751103350093470729351725056, 753586781748746837481184595521003855957341503488, 3450873173395281893717377931138512726225554486085193277581262111899648⟩,
      ⟨.BinaryOperator, 12861781551588303028142508543494366983697569974585595149681168, 12259964326927110867199088286751103350093470729351725056, 22835963083295378379342179162862346129375232000, 289873346565203679072259746929259255970600437244991651642132782497397427⟩,
      ⟨.BetweenOperator, 12861781551588417205170331870468523753883161150115460581163600, 12259964326927110867199088286751103350093470729351725056, 137015778499772168864005056718821957039994961984, 137438953472⟩,
      ⟨.CallingTableFunction, 12861781551589010940210880284425927553858380397254986747085328, 12259964326927110867199088287060588359914815798076506240, 730750818665451459101842567473868961656613109760, 4⟩,
      ⟨.CallingUnnest, 12861781551589170794740056584845966120777596183566152483471952, 12259964326927110867199088287060588359914815798076506240, 0, 293324430363182298080350520696453136038339666628584499471503002711358391⟩,
      ⟨.DotOperator, 12861781551588303025354915310601289354448363134016608693912080, 12259964326927110867199088286751103350093470729351725056, 22835963083295378379342179162862346129375232000, 256⟩,
      ⟨.FunctionChain, 12861781551588303025354915310601289354448363134016608693912080, 12259964326927110867199088286751103350093470729351725056, 22835963083295378379342179162862346129375232000, 256⟩,
      ⟨.GroupedExpr, 12861781551589010940210476199034079296031610399011416508989968, 12259964326927110866866781287804874381867518964281638912, 730750818665451459101842416376588253901675823104, 4⟩,
      ⟨.GroupedStatement, 12861781551776083149788831772564150954619276178783302164939280, 12259964326927110866866781287804874381867518964281638912, 187802960397021024989173501004042368025787331772416, 4⟩,
      ⟨.Identifier, 12861781551588280189391832015222910012269200271670479318680080, 12259964326927110867199088286751103350093470729351725056, 0, TOP⟩,
      ⟨.InOperator, 12861781551588303025354915393678039091005605190504549961433616, 12259964326927110867199088286751103350093470729351725056, 22835963083295378379342179162862346129375232000, 649037107316853453566312041152512⟩,
      ⟨.IsDistinctFromOperator, 12861781551588303025354915393678039091043384122402691495232016, 12259964326927110867199088286751103350093470729351725056, 22835963083295378379342216941794244270909030400, 332306998946228968225951765070086144⟩,
      ⟨.JoinOperator, 25108406941569559018512852890975641456568163751700507656192, 12259964326927110866866781287804874381867518964281638912, 22835963083295378379342179162862346129375232000, TOP⟩,
      ⟨.MultiTokenIdentifier, 12861781551588280189391832015222910012269200271670479318680080, 36779892980781332600932640721156050287993296684289359872, 24519928653854221733733552434404946937899825954937634816, TOP⟩,
      ⟨.PipeStatement, 12861781551589764526992224945871560480627112956123300140941840, 12259964326927110866866781287804874381867518964281638912, 22835963083295378379342179162862346129375232000, 110427941548649020598956093796432407239217743554726184882600387580788736⟩],
    TOP, 4074071952668972172536891376818756297583008133477650596065720225795100526800927675534802879⟩,
  ⟨false, [.bool (some false)], TOP, TOP,
    .node [⟨.AccessOperator, 12861781551589033776173580762060391196864721275526436660183568, 12259964326927110867199088286751103350093470729351725056, 753586781748746837481184595521003855957341503488, 3450873173395281893717377931138512726225554486085193277581262111899648⟩,
      ⟨.BinaryOperator, 12861781551588303028142508543494366983697569974585595149681168, 12259964326927110867199088286751103350093470729351725056, 22835963083295378379342179162862346129375232000, 289873346565203679072259746929259255970600437244991651642132782497397427⟩,
      ⟨.BetweenOperator, 12861781551588417205170331870468523753883161150115460581163600, 12259964326927110867199088286751103350093470729351725056, 137015778499772168864005056718821957039994961984, 137438953472⟩,
      ⟨.CallingTableFunction, 12861781551589010940210880284425927553858380397254986747085328, 12259964326927110867199088287060588359914815798076506240, 730750818665451459101842567473868961656613109760, 4⟩,
      ⟨.CallingUnnest, 12861781551589170794740056584845966120777596183566152483471952, 12259964326927110867199088287060588359914815798076506240, 0, 293324430363182298080350520696453136038339666628584499471503002711358391⟩,
      ⟨.DotOperator, 12861781551588303025354915310601289354448363134016608693912080, 12259964326927110867199088286751103350093470729351725056, 22835963083295378379342179162862346129375232000, 256⟩,
      ⟨.FunctionChain, 12861781551588303025354915310601289354448363134016608693912080, 12259964326927110867199088286751103350093470729351725056, 22835963083295378379342179162862346129375232000, 256⟩,
      ⟨.GroupedExpr, 12861781551589010940210476199034079296031610399011416508989968, 12259964326927110866866781287804874381867518964281638912, 730750818665451459101842416376588253901675823104, 4⟩,
      ⟨.GroupedStatement, 12861781551776083149788831772564150954619276178783302164939280, 12259964326927110866866781287804874381867518964281638912, 187802960397021024989173501004042368025787331772416, 4⟩,
      ⟨.Identifier, 12861781551588280189391832015222910012269200271670479318680080, 12259964326927110867199088286751103350093470729351725056, 0, TOP⟩,
      ⟨.InOperator, 12861781551588303025354915393678039091005605190504549961433616, 12259964326927110867199088286751103350093470729351725056, 22835963083295378379342179162862346129375232000, 649037107316853453566312041152512⟩,
      ⟨.IsDistinctFromOperator, 12861781551588303025354915393678039091043384122402691495232016, 12259964326927110867199088286751103350093470729351725056, 22835963083295378379342216941794244270909030400, 332306998946228968225951765070086144⟩,
      ⟨.MultiTokenIdentifier, 12861781551588280189391832015222910012269200271670479318680080, 36779892980781332600932640721156050287993296684289359872, 24519928653854221733733552434404946937899825954937634816, TOP⟩,
      ⟨.PipeStatement, 12861781551589764526992224945871560480627112956123300140941840, 12259964326927110866866781287804874381867518964281638912, 22835963083295378379342179162862346129375232000, 110427941548649020598956093796432407239217743554726184882600387580788736⟩],
    TOP, TOP⟩]

/-- Summaries of `parse_type`. -/
def parse_type : List Entry := [
  ⟨false, [.bool (some false), .bool (some false)], TOP, TOP,
    .node [⟨.Type, 4707826301540010924048244729814244106281667295946329817088, 12259964326927110866866781287804874381867518964281638912, 348449143727040986586497903853139862224896, TOP⟩,
      ⟨.Type, 4707826301540010924048244729814244106279361452937116123136, 12259964326927110866866781287804874381867518964281638912, 348449143727040986586495598010130648530944, TOP⟩,
      ⟨.Type, 4707826301540010575599101002773257519783763442806467592192, 12259964326927110866866781287804874381867518964281638912, 0, TOP⟩,
      ⟨.Type, 4707826301540100127029038852306810249154757889392353738752, 12259964326927110866866781287804874381867518964281638912, 89551429937849533552729370994446585886146560, TOP⟩,
      ⟨.Type, 4707826301540099778579895125265823662659159879261705207808, 12259964326927110866866781287804874381867518964281638912, 89202980794122492566142875396436455237615616, TOP⟩,
      ⟨.Type, 4707826301540100127029038852306810249152452046383140044800, 12259964326927110866866781287804874381867518964281638912, 89551429937849533552729368688603576672452608, TOP⟩,
      ⟨.Type, 4707826301540099778579895125265823662656854036252491513856, 12259964326927110866866781287804874381867518964281638912, 89202980794122492566142873090593446023921664, TOP⟩],
    TOP, TOP⟩,
  ⟨false, [.bool (some false), .bool (some true)], TOP, TOP,
    .node [⟨.Type, 4707826301540010924048244729814244106281667295946329817096, 12259964326927110866866781287804874381867518964281638912, 348449143727040986586497903853139862224896, TOP⟩,
      ⟨.Type, 4707826301540010924048244729814244106279361452937116123144, 12259964326927110866866781287804874381867518964281638912, 348449143727040986586495598010130648530944, TOP⟩,
      ⟨.Type, 4707826301540010575599101002773257519783763442806467592200, 12259964326927110866866781287804874381867518964281638912, 0, TOP⟩,
      ⟨.Type, 4707826301540100127029038852306810249154757889392353738760, 12259964326927110866866781287804874381867518964281638912, 89551429937849533552729370994446585886146560, TOP⟩,
      ⟨.Type, 4707826301540099778579895125265823662659159879261705207816, 12259964326927110866866781287804874381867518964281638912, 89202980794122492566142875396436455237615616, TOP⟩,
      ⟨.Type, 4707826301540100127029038852306810249152452046383140044808, 12259964326927110866866781287804874381867518964281638912, 89551429937849533552729368688603576672452608, TOP⟩,
      ⟨.Type, 4707826301540099778579895125265823662656854036252491513864, 12259964326927110866866781287804874381867518964281638912, 89202980794122492566142873090593446023921664, TOP⟩],
    TOP, TOP⟩,
  ⟨false, [.bool (some true), .bool (some false)], TOP, TOP,
    .node [⟨.Type, 4707826301540010924053561641797383769773282524737207009280, 12259964326927110867032934787277988865980494846816681984, 348449143727040986586497903853139862224896, TOP⟩,
      ⟨.Type, 4707826301540010924053561641797383769770976681727993315328, 12259964326927110867032934787277988865980494846816681984, 348449143727040986586495598010130648530944, TOP⟩,
      ⟨.Type, 4707826301540010575604417914756397183275378671597344784384, 12259964326927110867032934787277988865980494846816681984, 0, TOP⟩,
      ⟨.Type, 4707826301540100127034355764289949912646373118183230930944, 12259964326927110867032934787277988865980494846816681984, 89551429937849533552729370994446585886146560, TOP⟩,
      ⟨.Type, 4707826301540099778585212037248963326150775108052582400000, 12259964326927110867032934787277988865980494846816681984, 89202980794122492566142875396436455237615616, TOP⟩,
      ⟨.Type, 4707826301540100127034355764289949912644067275174017236992, 12259964326927110867032934787277988865980494846816681984, 89551429937849533552729368688603576672452608, TOP⟩,
      ⟨.Type, 4707826301540099778585212037248963326148469265043368706048, 12259964326927110867032934787277988865980494846816681984, 89202980794122492566142873090593446023921664, TOP⟩],
    TOP, TOP⟩]

/-- Summaries of `parse_window_expr`. -/
def parse_window_expr : List Entry := [
  ⟨false, [], TOP, TOP,
    .node [⟨.Identifier, 0, 12259964326927110866866781287804874381867518964281638912, 0, 4074071952668972172536891376818756322102936787331872501272280898708762599526673412366794747⟩,
      ⟨.WindowSpecification, 730750829597043265624424713319030827037417799680, 12259964326927110866866781287804874381867518964281638912, 730750818665451459101842416358141509827966271488, 4⟩],
    TOP, TOP⟩]

/-- Summaries of `parse_with_connection_clause`. -/
def parse_with_connection_clause : List Entry := [
  ⟨false, [], 862718293348820473429344482784628181556388621521298319395315527974912, TOP,
    .node [⟨.KeywordSequence, 41538374868278621028243970633760768, 12259964326927110866866781287804874381867518964281638912, 41538374868278621028243970633760768, 862718293348820473429344482784628181556388621521298319395315527974912⟩],
    TOP, TOP⟩]

/-- Summaries of `parse_with_clause`. -/
def parse_with_clause : List Entry := [
  ⟨false, [], 862718293348820473429344482784628181556388621521298319395315527974912, TOP,
    .node [⟨.WithClause, 44601490397061246283071436545296723011960832, 12259964326932686053166413943590258311435681054658134016, 5575186299632655785383929568162090376495104, 862718293348820473429344482784628181556388621521298319395315527974912⟩],
    862718293348820476422499836038317358037535158924245943650665375989832, 110427941548655297700691480477196243028641268133792344295395225791102980⟩]

/-- Summaries of `parse_window_clause`. -/
def parse_window_clause : List Entry := [
  ⟨false, [], 431359146674410236714672241392314090778194310760649159697657763987456, TOP,
    .node [⟨.WindowClause, 0, 1606950304223317202652828959122450407396584861301757116940288, 1606938044258990275541962092341162602522202993782792835301376, 431359146674410236714672241392314090778194310760649159697657763987456⟩],
    TOP, TOP⟩]

/-- Summaries of `parse_xxxby_exprs`. -/
def parse_xxxby_exprs : List Entry := [
  ⟨false, [], 182687704666362864775460604089535377456991567872, TOP,
    .node [⟨.XXXByExprs, 8192, 12259964326927110866866781287804874418761007111700742144, 36893488147419111424, 182687704666362864775460604089535377456991567872⟩],
    TOP, TOP⟩,
  ⟨false, [], 1427247692705959881058285969449495136382746624, TOP,
    .node [⟨.XXXByExprs, 8192, 12259964326927110866866781287804874418761007111700742144, 36893488147419111424, 1427247692705959881058285969449495136382746624⟩],
    TOP, TOP⟩,
  ⟨false, [], 1125899906842624, TOP,
    .node [⟨.XXXByExprs, 8192, 12259964326927110866866781287804874418761007111700742144, 36893488147419111424, 1125899906842624⟩],
    TOP, TOP⟩]

/-- Summaries of `parse_groupby_exprs`. -/
def parse_groupby_exprs : List Entry := [
  ⟨false, [.bool (some false)], 5070602400912917605986812821504, TOP,
    .node [⟨.GroupByExprs, 8192, 12259964326927110866866781287814545825317924145098391552, 8192, 5070602400912917605986812821504⟩],
    TOP, TOP⟩,
  ⟨false, [.bool (some true)], 5070602400912917605986812821504, TOP,
    .node [⟨.GroupByExprs, 8192, 12259964326927110866866781287814545825317924145098391552, 8192, 5070602400912917605986812821504⟩],
    TOP, TOP⟩]

/-- Summaries of `parse_table_sample_ratio`. -/
def parse_table_sample_ratio : List Entry := [
  ⟨false, [], TOP, TOP,
    .node [⟨.TableSampleRatio, 730750905777737390862089063000487756434337955840, 12259964326927110866866781287804874381867518964281638912, 730750905777737390862089063000487756434337955840, TOP⟩],
    TOP, TOP⟩]

/-- Summaries of `parse_pivot_config_clause`. -/
def parse_pivot_config_clause : List Entry := [
  ⟨false, [], TOP, TOP,
    .node [⟨.PivotConfig, 730750818665451459103080358758610131537688002560, 12259964326927110866866781287804874418761007111700742144, 730750818665451459103080358795503619685107105792, TOP⟩],
    TOP, TOP⟩]

/-- Summaries of `parse_unpivot_config_clause`. -/
def parse_unpivot_config_clause : List Entry := [
  ⟨false, [], TOP, TOP,
    .node [⟨.UnpivotConfig, 730750818665451459103080358777056875611397554176, 12259964326927110866866781287804874381867518964281638912, 730750818665451459103080358777056875611397554176, TOP⟩],
    TOP, TOP⟩]

/-- Summaries of `parse_match_recognize_clause`. -/
def parse_match_recognize_clause : List Entry := [
  ⟨false, [], 10889035741470030830827987437816582766592, TOP,
    .node [⟨.MatchRecognizeClause, 536871440, 12259964326927110866866781287804874381867518964281638912, 536870912, 10889035741470030830827987437816582766592⟩],
    TOP, TOP⟩]

/-- Summaries of `parse_match_recognize_config`. -/
def parse_match_recognize_config : List Entry := [
  ⟨false, [], TOP, TOP,
    .node [⟨.MatchRecognizeConfig, 6576757400704025160323360478545587223518725013504, 12259964326927110866866781287804874381867518964281638912, 730750818665451459101842416358141509827966271488, TOP⟩],
    TOP, TOP⟩]

/-- Summaries of `parse_by_name_clause`. -/
def parse_by_name_clause : List Entry := [
  ⟨false, [], 8796093022208, TOP,
    .node [⟨.KeywordSequence, 41538374868278621028243970633760768, 12259964326927110866866781287804874381867518964281638912, 41538374868278621028243970633760768, 8796093022208⟩],
    TOP, TOP⟩]

/-- Summaries of `parse_pattern_clause`. -/
def parse_pattern_clause : List Entry := [
  ⟨false, [], 730750818665451459101842416358141509827966271488, TOP,
    .node [⟨.PatternClause, 21778071482940061661655974875633165533184, 12259964326927110866866781287804874381867518964281638912, 21778071482940061661655974875633165533184, 730750818665451459101842416358141509827966271488⟩],
    TOP, 4074071952668972172509284391431594066953197763882764399462476462820081053306023315470548943⟩]

/-- Summaries of `parse_grouped_pattern`. -/
def parse_grouped_pattern : List Entry := [
  ⟨false, [], 4, TOP,
    .node [⟨.GroupedPattern, 730750818665451459101842416358141509827966271488, 12259964326927154423009747167928197693817270230612705280, 730750862221594424981965739670091261094297337856, 4⟩],
    8, TOP⟩]

/-- Summaries of `parse_pattern`. -/
def parse_pattern : List Entry := [
  ⟨false, [], TOP, TOP,
    .node [⟨.GroupedPattern, 730750818665451459101842416358141509827966271488, 12261460904603781267597987741196899167629397905536712704, 1497308427489066182665555234441143903388769221345280, 4⟩,
      ⟨.Pattern, 0, 12261460904603737711455021861073575855679646639205646336, 1496577676626844588240573268701473812127674924007424, 4074071952668972172536891376818756322102936787331872501272280898708762599526673412366794747⟩],
    TOP, 4074071952668972172509284391431594066953197763882764399462476462820081053306023315470548943⟩]

/-- Summaries of `parse_quantifier`. -/
def parse_quantifier : List Entry := [
  ⟨false, [], 27606985387162255149739023449108101809804435888681546220650096895197184, TOP,
    .node [⟨.PatternQuantifier, 22300745210213291073239080436841978380943360, 12259964326927110866866781287804874381867518964281638912, 22300745198530623141535718272648361505980416, 27606985387162255149739023449108101809804435888681546220650096895197184⟩],
    TOP, TOP⟩]

/-- Summaries of `parse_corresponding_clause`. -/
def parse_corresponding_clause : List Entry := [
  ⟨false, [], 200867255532373784442745261542645325315275950683601407836160, TOP,
    .node [⟨.Keyword, 0, 12259964326927110866866781287804874381867518964281638912, 0, 576460752303423488⟩,
      ⟨.KeywordSequence, 41538374868278621028243970633760768, 12259964326927110866866781287804874381867518964281638912, 41538374868278621028243970633760768, 200867255532373784442745261542645325315275950683601407836160⟩],
    TOP, TOP⟩]

/-- Summaries of `push_trailing_alias`. -/
def push_trailing_alias : List Entry := [
  ⟨true, [.node [⟨.CallingUnnest, 890605348245837270988667162362372808637650305088, 12259964326927110867199088287060588359914815798076506240, 0, 293324430363182298080350520696453136038339666628584499471503002711358391⟩,
      ⟨.GroupedExpr, 730750818665451459101842416376588253901675823104, 12259964326927110866866781287804874381867518964281638912, 730750818665451459101842416376588253901675823104, 4⟩]], TOP, TOP,
    .node [⟨.CallingUnnest, 890605348245837270988667162362372808637650305616, 12259964326927110867199088287060588359914815798076506240, 0, 293324430363182298080350520696453136038339666628584499471503002711358391⟩,
      ⟨.GroupedExpr, 730750818665451459101842416376588253901675823632, 12259964326927110866866781287804874381867518964281638912, 730750818665451459101842416376588253901675823104, 4⟩],
    TOP, TOP⟩,
  ⟨true, [.node [⟨.PivotOperator, 536870912, 12259964326927110866866781287804874381867518964281638912, 536870912, 1461501637330902918203684832716283019655932542976⟩]], TOP, TOP,
    .node [⟨.PivotOperator, 536871440, 12259964326927110866866781287804874381867518964281638912, 536870912, 1461501637330902918203684832716283019655932542976⟩],
    TOP, TOP⟩,
  ⟨true, [.node [⟨.UnpivotOperator, 536870912, 12259964326927110866866781292756634539009040063878135808, 536870912, 421249166674228746791672110734681729275580381602196445017243910144⟩]], TOP, TOP,
    .node [⟨.UnpivotOperator, 536871440, 12259964326927110866866781292756634539009040063878135808, 536870912, 421249166674228746791672110734681729275580381602196445017243910144⟩],
    TOP, TOP⟩,
  ⟨true, [.node [⟨.MatchRecognizeClause, 536870912, 12259964326927110866866781287804874381867518964281638912, 536870912, 10889035741470030830827987437816582766592⟩]], TOP, TOP,
    .node [⟨.MatchRecognizeClause, 536871440, 12259964326927110866866781287804874381867518964281638912, 536870912, 10889035741470030830827987437816582766592⟩],
    TOP, TOP⟩,
  ⟨true, [.node [⟨.PivotPipeOperator, 536870912, 12259964326927110866866781287804874381867518964281638912, 536870912, 1461501637330902918203684832716283019655932542976⟩]], TOP, TOP,
    .node [⟨.PivotPipeOperator, 536871440, 12259964326927110866866781287804874381867518964281638912, 536870912, 1461501637330902918203684832716283019655932542976⟩],
    TOP, TOP⟩,
  ⟨true, [.node [⟨.UnpivotPipeOperator, 633825300114114700748888473600, 12259964326927110866866781287804874381867518964281638912, 536870912, 421249166674228746791672110734681729275580381602196445017243910144⟩]], TOP, TOP,
    .node [⟨.UnpivotPipeOperator, 633825300114114700748888474128, 12259964326927110866866781287804874381867518964281638912, 536870912, 421249166674228746791672110734681729275580381602196445017243910144⟩],
    TOP, TOP⟩,
  ⟨true, [.node [⟨.AccessOperator, 753586781770014485413743249487464768921827016704, 12259964326927110867199088286751103350093470729351725056, 753586781748746837481184595521003855957341503488, 3450873173395281893717377931138512726225554486085193277581262111899648⟩,
      ⟨.BinaryOperator, 22838750697795919389530082336163828080316514304, 12259964326927110867199088286751103350093470729351725056, 22835963083295378379342179162862346129375232000, 289873346565203679072259746929259255970600437244991651642132782497397427⟩,
      ⟨.BetweenOperator, 137015778521122893546300267927339357945747996736, 12259964326927110867199088286751103350093470729351725056, 137015778499772168864005056718821957039994961984, 137438953472⟩,
      ⟨.CallingTableFunction, 730750819069536850950100243146586497471913918464, 12259964326927110867199088287060588359914815798076506240, 730750818665451459101842567473868961656613109760, 4⟩,
      ⟨.CallingUnnest, 890605348245837270988667162362372808637650305088, 12259964326927110867199088287060588359914815798076506240, 0, 293324430363182298080350520696453136038339666628584499471503002711358391⟩,
      ⟨.DotOperator, 22835963104563026311900833129323259093860745216, 12259964326927110867199088286751103350093470729351725056, 22835963083295378379342179162862346129375232000, 256⟩,
      ⟨.FunctionChain, 22835963104563026311900833129323259093860745216, 12259964326927110867199088286751103350093470729351725056, 22835963083295378379342179162862346129375232000, 256⟩,
      ⟨.GroupedExpr, 730750818665451459101842416376588253901675823104, 12259964326927110866866781287804874381867518964281638912, 730750818665451459101842416376588253901675823104, 4⟩,
      ⟨.GroupedStatement, 187802960397021024989173501004042368025787331772416, 12259964326927110866866781287804874381867518964281638912, 187802960397021024989173501004042368025787331772416, 4⟩,
      ⟨.Identifier, 21267647932558653966460912964485513216, 12259964326927110867199088286751103350093470729351725056, 0, TOP⟩,
      ⟨.InOperator, 22835963104646103061637390371379747035128266752, 12259964326927110867199088286751103350093470729351725056, 22835963083295378379342179162862346129375232000, 649037107316853453566312041152512⟩,
      ⟨.IsDistinctFromOperator, 22835963104646103061637428150311645176662065152, 12259964326927110867199088286751103350093470729351725056, 22835963083295378379342216941794244270909030400, 332306998946228968225951765070086144⟩,
      ⟨.MultiTokenIdentifier, 21267647932558653966460912964485513216, 36779892980781332600932640721156050287993296684289359872, 24519928653854221733733552434404946937899825954937634816, TOP⟩,
      ⟨.PipeStatement, 1484337600414198296583027011879145365785307774976, 12259964326927110866866781287804874381867518964281638912, 22835963083295378379342179162862346129375232000, 110427941548649020598956093796432407239217743554726184882600387580788736⟩]], TOP, TOP,
    .node [⟨.AccessOperator, 753586781770014485413743249487464768921827017232, 12259964326927110867199088286751103350093470729351725056, 753586781748746837481184595521003855957341503488, 3450873173395281893717377931138512726225554486085193277581262111899648⟩,
      ⟨.BinaryOperator, 22838750697795919389530082336163828080316514832, 12259964326927110867199088286751103350093470729351725056, 22835963083295378379342179162862346129375232000, 289873346565203679072259746929259255970600437244991651642132782497397427⟩,
      ⟨.BetweenOperator, 137015778521122893546300267927339357945747997264, 12259964326927110867199088286751103350093470729351725056, 137015778499772168864005056718821957039994961984, 137438953472⟩,
      ⟨.CallingTableFunction, 730750819069536850950100243146586497471913918992, 12259964326927110867199088287060588359914815798076506240, 730750818665451459101842567473868961656613109760, 4⟩,
      ⟨.CallingUnnest, 890605348245837270988667162362372808637650305616, 12259964326927110867199088287060588359914815798076506240, 0, 293324430363182298080350520696453136038339666628584499471503002711358391⟩,
      ⟨.DotOperator, 22835963104563026311900833129323259093860745744, 12259964326927110867199088286751103350093470729351725056, 22835963083295378379342179162862346129375232000, 256⟩,
      ⟨.FunctionChain, 22835963104563026311900833129323259093860745744, 12259964326927110867199088286751103350093470729351725056, 22835963083295378379342179162862346129375232000, 256⟩,
      ⟨.GroupedExpr, 730750818665451459101842416376588253901675823632, 12259964326927110866866781287804874381867518964281638912, 730750818665451459101842416376588253901675823104, 4⟩,
      ⟨.GroupedStatement, 187802960397021024989173501004042368025787331772944, 12259964326927110866866781287804874381867518964281638912, 187802960397021024989173501004042368025787331772416, 4⟩,
      ⟨.Identifier, 21267647932558653966460912964485513744, 12259964326927110867199088286751103350093470729351725056, 0, TOP⟩,
      ⟨.InOperator, 22835963104646103061637390371379747035128267280, 12259964326927110867199088286751103350093470729351725056, 22835963083295378379342179162862346129375232000, 649037107316853453566312041152512⟩,
      ⟨.IsDistinctFromOperator, 22835963104646103061637428150311645176662065680, 12259964326927110867199088286751103350093470729351725056, 22835963083295378379342216941794244270909030400, 332306998946228968225951765070086144⟩,
      ⟨.MultiTokenIdentifier, 21267647932558653966460912964485513744, 36779892980781332600932640721156050287993296684289359872, 24519928653854221733733552434404946937899825954937634816, TOP⟩,
      ⟨.PipeStatement, 1484337600414198296583027011879145365785307775504, 12259964326927110866866781287804874381867518964281638912, 22835963083295378379342179162862346129375232000, 110427941548649020598956093796432407239217743554726184882600387580788736⟩],
    TOP, TOP⟩]

/-- Summaries of `parse_select_statement`. -/
def parse_select_statement : List Entry := [
  ⟨false, [.bool (some true), .bool (some true)], 110427941548655297700691480477196243028640951221142287238044851615301636, TOP,
    .node [⟨.GroupedStatement, 189264462034394463284371941559298254567161240485888, 12259964326927110866866781287804874381867518964281638912, 187802960397021024989173501004042368025787331772416, 4⟩,
      ⟨.PipeStatement, 1484337600414198296583027011879145365785307774976, 12259964326927110866866781287804874381867518964281638912, 22835963083295378379342179162862346129375232000, 110427941548649020598956093796432407239217743554726184882600387580788736⟩,
      ⟨.SelectStatement, 1205203533195704209687641582459234344875298553943055094775808, 12259964326927110866866781287804874418761007111700743168, 36893488147419103232, 110427941548655297700691480477196243028640951221142287238044851615301632⟩,
      ⟨.SetOperator, 1484337600456738865874641269246377488376947286016, 12259964326927110866866781287804874381867518964281638912, 22835963083295378379342179162862416498119409664, TOP⟩],
    TOP, TOP⟩,
  ⟨false, [.bool (some false), .bool (some true)], 110427941548655297700691480477196243028640951221142287238044851615301636, TOP,
    .node [⟨.GroupedStatement, 187802960397063560366168256726581971547505307942912, 12259964326927110866866781287804874381867518964281638912, 187802960397021024989173501004042368025787331772416, 4⟩,
      ⟨.PipeStatement, 1484337600414198296583027011879145365785307774976, 12259964326927110866866781287804874381867518964281638912, 22835963083295378379342179162862346129375232000, 110427941548649020598956093796432407239217743554726184882600387580788736⟩,
      ⟨.SelectStatement, 1205203533194242708050310679541030660042582270923399162232832, 12259964326927110866866781287804874418761007111700743168, 36893488147419103232, 110427941548655297700691480477196243028640951221142287238044851615301632⟩,
      ⟨.SetOperator, 22835963125835947670956436530094468721014743040, 12259964326927110866866781287804874381867518964281638912, 22835963083295378379342179162862416498119409664, TOP⟩],
    TOP, TOP⟩,
  ⟨false, [.bool (some false), .bool (some false)], 4, TOP,
    .node [⟨.GroupedStatement, 187802960397021024989173501004042368025787331772416, 12259964326927110866866781287804874381867518964281638912, 187802960397021024989173501004042368025787331772416, 4⟩,
      ⟨.PipeStatement, 1484337600414198296583027011879145365785307774976, 12259964326927110866866781287804874381867518964281638912, 22835963083295378379342179162862346129375232000, 110427941548649020598956093796432407239217743554726184882600387580788736⟩],
    TOP, TOP⟩,
  ⟨false, [.bool (some false), .bool (some true)], TOP, TOP,
    .node [⟨.FromStatement, 3213876088519442052721255087600528889877140717329315312697344, 12259964326927110866866781287804874381867518964281638912, 3213876088517980551083924184682325205044424434309659380154368, 316912650057057350374175801344⟩,
      ⟨.GroupedStatement, 3213876088705783511480987745048493461770987959113090978545664, 12259964326927110866866781287804874381867518964281638912, 187802960397021024989173501004042368025787331772416, 4⟩,
      ⟨.PipeStatement, 3213876088519464888684338382978908232056285132931370978377728, 12259964326927110866866781287804874381867518964281638912, 22835963083295378379342179162862346129375232000, 110427941548649020598956093796432407239217743554726184882600387580788736⟩,
      ⟨.SelectStatement, 4419079621712223259134234864223355865086988258488984832835584, 12259964326927110866866781287804874418761007111700743168, 36893488147419103232, 4074071952668972172536028658525407501629507442849087873090724510087241301207278096838819835⟩,
      ⟨.SetOperator, 3213876088518003387047050020629996161480936082034306685345792, 12259964326927110866866781287804874381867518964281638912, 22835963083295378379342179162862416498119409664, TOP⟩],
    TOP, TOP⟩,
  ⟨false, [.bool (some true), .bool (some true)], TOP, TOP,
    .node [⟨.FromStatement, 3213876088519442052721255087600528889877140717329315312697344, 12259964326927110866866781287804874381867518964281638912, 3213876088517980551083924184682325205044424434309659380154368, 316912650057057350374175801344⟩,
      ⟨.GroupedStatement, 3213876088707245013118318647966697146603704242132746911088640, 12259964326927110866866781287804874381867518964281638912, 187802960397021024989173501004042368025787331772416, 4⟩,
      ⟨.PipeStatement, 3213876088519464888684338382978908232056285132931370978377728, 12259964326927110866866781287804874381867518964281638912, 22835963083295378379342179162862346129375232000, 110427941548649020598956093796432407239217743554726184882600387580788736⟩,
      ⟨.SelectStatement, 4419079621713684760771565767141559549919704541508640765378560, 12259964326927110866866781287804874418761007111700743168, 36893488147419103232, 4074071952668972172536028658525407501629507442849087873090724510087241301207278096838819835⟩,
      ⟨.SetOperator, 3213876088519464888684380923548199846313652365053962617888768, 12259964326927110866866781287804874381867518964281638912, 22835963083295378379342179162862416498119409664, TOP⟩],
    TOP, TOP⟩,
  ⟨false, [.bool (some false), .bool (some false)], TOP, TOP,
    .node [⟨.FromStatement, 3213876088519442052721255087600528889877140717329315312697344, 12259964326927110866866781287804874381867518964281638912, 3213876088517980551083924184682325205044424434309659380154368, 316912650057057350374175801344⟩,
      ⟨.GroupedStatement, 3213876088705783511480987745048493461770987959113090978545664, 12259964326927110866866781287804874381867518964281638912, 187802960397021024989173501004042368025787331772416, 4⟩,
      ⟨.PipeStatement, 3213876088519464888684338382978908232056285132931370978377728, 12259964326927110866866781287804874381867518964281638912, 22835963083295378379342179162862346129375232000, 110427941548649020598956093796432407239217743554726184882600387580788736⟩,
      ⟨.SelectStatement, 4419079621712223259134234864223355865086988258488984832835584, 12259964326927110866866781287804874418761007111700743168, 36893488147419103232, 4074071952668972172536028658525407501629507442849087873090724510087241301207278096838819835⟩,
      ⟨.SetOperator, 3213876088518003387047050020629996161480936082034306685345792, 12259964326927110866866781287804874381867518964281638912, 3213876088518003387047007480060704547223568849982083790012416, TOP⟩],
    TOP, TOP⟩]

/-- Summaries of `parse_from_statement`. -/
def parse_from_statement : List Entry := [
  ⟨false, [], 316912650057057350374175801344, TOP,
    .node [⟨.FromStatement, 1461501637330902918203684832734729763729642094592, 12259964326927110866866781287804874381867518964281638912, 18446744073709551616, 316912650057057350374175801344⟩,
      ⟨.PipeStatement, 1484337600414198296583027011879145365785307774976, 12259964326927110866866781287804874381867518964281638912, 22835963083295378379342179162862346129375232000, 110427941548649020598956093796432407239217743554726184882600387580788736⟩],
    TOP, TOP⟩]

/-- Summaries of `parse_pipe_statement`. -/
def parse_pipe_statement : List Entry := [
  ⟨false, [.closed], 110427941548649020598956093796432407239217743554726184882600387580788736, TOP,
    .node [⟨.PipeStatement, 1484337600414198296583027011879145365785307774976, 12259964326927110866866781287804874381867518964281638912, 22835963083295378379342179162862346129375232000, 110427941548649020598956093796432407239217743554726184882600387580788736⟩],
    TOP, TOP⟩]

/-- Summaries of `parse_select_pipe_operator`. -/
def parse_select_pipe_operator : List Entry := [
  ⟨false, [], 6277101735386680763835789423207666416102355444464034512896, TOP,
    .node [⟨.SelectPipeOperator, 803469022129495137770981046171215126561215611592144769253376, 12259964326927110866866781287804874418761007111700742144, 36893488147419103232, 6277101735386680763835789423207666416102355444464034512896⟩],
    TOP, TOP⟩]

/-- Summaries of `parse_limit_pipe_operator`. -/
def parse_limit_pipe_operator : List Entry := [
  ⟨false, [], 680564733841876926926749214863536422912, TOP,
    .node [⟨.LimitPipeOperator, 664613997892457936451903530140172288, 12259964326927110866866781287804874418761007111700742144, 36893488147419103232, 680564733841876926926749214863536422912⟩],
    TOP, TOP⟩]

/-- Summaries of `parse_aggregate_pipe_operator`. -/
def parse_aggregate_pipe_operator : List Entry := [
  ⟨false, [], 8388608, TOP,
    .node [⟨.AggregatePipeOperator, 1208925819614629174706176, 12259964326927110866866781287804874418761007111700742144, 36893488147419103232, 8388608⟩],
    TOP, TOP⟩]

/-- Summaries of `parse_union_pipe_operator`. -/
def parse_union_pipe_operator : List Entry := [
  ⟨false, [], 105312291668557186697918027683711970693768209724855813741643563008, TOP,
    .node [⟨.UnionPipeOperator, 633825300114114700756941545472, 12259964326927110866866781287804874418761007111700742144, 633825300151008188895770705920, 105312291668557186697918027683711970693768209724855813741643563008⟩],
    TOP, TOP⟩,
  ⟨false, [], 24519928665272203445525011725595033955417899767613620224, TOP,
    .node [⟨.UnionPipeOperator, 5192930683834941743231253270765568, 12259964326927110866866781287804874418761007111700742144, 633825300151008188895770705920, TOP⟩],
    TOP, TOP⟩]

/-- Summaries of `parse_join_pipe_operator`. -/
def parse_join_pipe_operator : List Entry := [
  ⟨false, [], 1329227995784915872903807060280344576, TOP,
    .node [⟨.JoinPipeOperator, 25108406941546723055344486920826450580282325584916418396160, 12259964326927110866866781287804874418761007111700742144, 36893488147419103232, 1329227995784915872903807060280344576⟩],
    TOP, TOP⟩,
  ⟨false, [], 24519928665272203445525011725595033955417899767613620224, TOP,
    .node [⟨.JoinPipeOperator, 25108406941546723055344492113123309115109954115412747616256, 12259964326927110866866781287804874418761007111700742144, 5192296858534864522018643748323328, TOP⟩],
    TOP, TOP⟩]

/-- Summaries of `parse_tablesample_pipe_operator`. -/
def parse_tablesample_pipe_operator : List Entry := [
  ⟨false, [], 1606938044258990275541962092341162602522202993782792835301376, TOP,
    .node [⟨.TableSamplePipeOperator, 633825904577024508062938955776, 12259964326927110866866781287804874381867518964281638912, 633825904577024508062938955776, 1606938044258990275541962092341162602522202993782792835301376⟩],
    TOP, TOP⟩]

/-- Summaries of `parse_pivot_pipe_operator`. -/
def parse_pivot_pipe_operator : List Entry := [
  ⟨false, [], 1461501637330902918203684832716283019655932542976, TOP,
    .node [⟨.PivotPipeOperator, 536871440, 12259964326927110866866781287804874381867518964281638912, 536870912, 1461501637330902918203684832716283019655932542976⟩],
    TOP, TOP⟩]

/-- Summaries of `parse_unpivot_pipe_operator`. -/
def parse_unpivot_pipe_operator : List Entry := [
  ⟨false, [], 421249166674228746791672110734681729275580381602196445017243910144, TOP,
    .node [⟨.UnpivotPipeOperator, 633825300114114700748888474128, 12259964326927110866866781287804874381867518964281638912, 536870912, 421249166674228746791672110734681729275580381602196445017243910144⟩],
    TOP, TOP⟩]

/-- Summaries of `parse_with_pipe_operator`. -/
def parse_with_pipe_operator : List Entry := [
  ⟨false, [], 862718293348820473429344482784628181556388621521298319395315527974912, TOP,
    .node [⟨.WithPipeOperator, 44601490397061246283071436545296723011960832, 12259964326932686053166413943590258311435681054658134016, 5575186299632655785383929568162090376495104, 862718293348820473429344482784628181556388621521298319395315527974912⟩],
    862718293348820476422499836038317358037535158924245943650665375989832, 110427941548655297700691480477196243028641268133792344295395225791102980⟩]

/-- Summaries of `parse_match_recognize_pipe_operator`. -/
def parse_match_recognize_pipe_operator : List Entry := [
  ⟨false, [], 10889035741470030830827987437816582766592, TOP,
    .node [⟨.MatchRecognizePipeOperator, 536871440, 12259964326927110866866781287804874381867518964281638912, 536870912, 10889035741470030830827987437816582766592⟩],
    TOP, TOP⟩]

/-- Summaries of `parse_base_pipe_operator`. -/
def parse_base_pipe_operator : List Entry := [
  ⟨false, [.bool (some false)], 107839786681156786594684247905263513390136519268736748081759903547392, TOP,
    .node [⟨.BasePipeOperator, 0, 12259964326927110866866781287804874418761007111700742144, 36893488147419103232, 107839786681156786594684247905263513390136519268736748081759903547392⟩],
    TOP, TOP⟩,
  ⟨false, [.bool (some true)], 1427247692705959881058285969449495136382746624, TOP,
    .node [⟨.BasePipeOperator, 633825300114114700748351602688, 12259964326927110866866781287804874418761007111700742144, 633825300151008188895770705920, 1427247692705959881058285969449495136382746624⟩],
    TOP, TOP⟩]

/-- Summaries of `parse_insert_statement`. -/
def parse_insert_statement : List Entry := [
  ⟨false, [.bool (some true)], 20769187434139310514121985316880384, TOP,
    .node [⟨.InsertStatement, 191563404109873438197711611789182307084488643851583488, 12259964326927110866866781287804874381867518964281638912, 9903520314283042199192993792, 20769187434139310514121985316880384⟩],
    TOP, TOP⟩,
  ⟨false, [.bool (some false)], 20769187434139310514121985316880384, TOP,
    .node [⟨.InsertStatement, 191561942608236107294793408104349590801468987919040512, 12259964326927110866866781287804874381867518964281638912, 9903520314283042199192993792, 20769187434139310514121985316880384⟩],
    TOP, TOP⟩]

/-- Summaries of `parse_delete_statement`. -/
def parse_delete_statement : List Entry := [
  ⟨false, [.bool (some true)], 2361183241434822606848, TOP,
    .node [⟨.DeleteStatement, 401734535011451896552334837852666634724626957371110087196672, 12259964326927110866866781287804874381867518964281638912, 401734535009990394915003934934462949854131742488496992944128, 2361183241434822606848⟩],
    TOP, TOP⟩,
  ⟨false, [.bool (some false)], 2361183241434822606848, TOP,
    .node [⟨.DeleteStatement, 401734535009990394915003934934462949891910674351454154653696, 12259964326927110866866781287804874381867518964281638912, 401734535009990394915003934934462949854131742488496992944128, 2361183241434822606848⟩],
    TOP, TOP⟩]

/-- Summaries of `parse_truncate_statement`. -/
def parse_truncate_statement : List Entry := [
  ⟨false, [.bool (some true)], 6582018229284824168619876730229402019930943462534319453394436096, TOP,
    .node [⟨.TruncateStatement, 35919325740681601020691962133668087774083854108721152, 12259964326927110866866781287804874381867518964281638912, 35917864239044270117773758448835371491064198176178176, 6582018229284824168619876730229402019930943462534319453394436096⟩],
    TOP, TOP⟩,
  ⟨false, [.bool (some false)], 6582018229284824168619876730229402019930943462534319453394436096, TOP,
    .node [⟨.TruncateStatement, 35917864239044270117773758448835371491064198176178176, 12259964326927110866866781287804874381867518964281638912, 35917864239044270117773758448835371491064198176178176, 6582018229284824168619876730229402019930943462534319453394436096⟩],
    TOP, 4074071952668972172536891376818756322102936787331872501272280898708762599526673412366794495⟩]

/-- Summaries of `parse_update_statement`. -/
def parse_update_statement : List Entry := [
  ⟨false, [.bool (some true)], 1684996666696914987166688442938726917102321526408785780068975640576, TOP,
    .node [⟨.UpdateStatement, 401734535014374899826996643689074004390059523410421952282624, 12259964326927110866866781287804874381867518964281638912, 2923003274661805836407369665432566039311865085952, 1684996666696914987166688442938726917102321526408785780068975640576⟩],
    TOP, TOP⟩,
  ⟨false, [.bool (some false)], 1684996666696914987166688442938726917102321526408785780068975640576, TOP,
    .node [⟨.UpdateStatement, 401734535012913398189665740770870319557343240390766019739648, 12259964326927110866866781287804874381867518964281638912, 2923003274661805836407369665432566039311865085952, 1684996666696914987166688442938726917102321526408785780068975640576⟩],
    TOP, TOP⟩]

/-- Summaries of `parse_merge_statement`. -/
def parse_merge_statement : List Entry := [
  ⟨false, [.bool (some true)], 87112285931760246646623899502532662132736, TOP,
    .node [⟨.MergeStatement, 25108430888251050722188801688222241677208168731769521045504, 200879515496700711553612128323933130189657241741813386051584, 225975686419163333527603160312644075119138693850564306927616, 87112285931760246646623899502532662132736⟩],
    TOP, TOP⟩,
  ⟨false, [.bool (some false)], 87112285931760246646623899502532662132736, TOP,
    .node [⟨.MergeStatement, 25108430888251050722188801688222241677208168731769521045504, 200879515496700711553612128323933130189657241741813386051584, 225975686419163333527603160312644075119138693850564306927616, 87112285931760246646623899502532662132736⟩],
    TOP, 4074071952668972172536837456925422020823347453301698462010933624419917518381711205146296319⟩]

/-- Summaries of `parse_create_schema_statement`. -/
def parse_create_schema_statement : List Entry := [
  ⟨false, [.bool (some true)], 1152921504606846976, TOP,
    .node [⟨.CreateSchemaStatement, 6528185804803609496026557219966159916585544461301954092466176, 12259964326927110866866781287959616886778191498644029440, 100433627766186892221372630771322682000450800945491347505152, 1152921504606846976⟩],
    TOP, TOP⟩,
  ⟨false, [.bool (some false)], 1152921504606846976, TOP,
    .node [⟨.CreateSchemaStatement, 6528185804802147994389226317047956231752828178282298159923200, 12259964326927110866866781287959616886778191498644029440, 100433627766186892221372630771322682000450800945491347505152, 1152921504606846976⟩],
    TOP, TOP⟩]

/-- Summaries of `parse_create_search_index_statement`. -/
def parse_create_search_index_statement : List Entry := [
  ⟨false, [.bool (some true)], 1152921504606846976, TOP,
    .node [⟨.CreateIndexStatement, 100433676406422884242048333389606555041258484587700303167488, 12259964326927110877500605254238943870008647980886786048, 100433675656672544280400783697663065363485692838149204475904, 1152921504606846976⟩],
    TOP, TOP⟩,
  ⟨false, [.bool (some false)], 1152921504606846976, TOP,
    .node [⟨.CreateIndexStatement, 100433676404961382604717430471402870208542201568044370624512, 12259964326927110877500605254238943870008647980886786048, 100433675656672544280400783697663065363485692838149204475904, 1152921504606846976⟩],
    TOP, TOP⟩]

/-- Summaries of `parse_create_table_statement`. -/
def parse_create_table_statement : List Entry := [
  ⟨false, [.bool (some true)], 1152921504606846976, TOP,
    .node [⟨.CreateTableStatement, 32239194896106415160476995992830441630541410387268873503900160, 12259964326927110877500605254238943870008647980886786048, 100433627766186892221372630771322682000450800945491347505152, 1152921504606846976⟩],
    TOP, TOP⟩,
  ⟨false, [.bool (some false)], 1152921504606846976, TOP,
    .node [⟨.CreateTableStatement, 32239194896104953658839665089912237945708694104249217571357184, 12259964326927110877500605254238943870008647980886786048, 100433627766186892221372630771322682000450800945491347505152, 1152921504606846976⟩],
    TOP, TOP⟩]

/-- Summaries of `parse_create_view_statement`. -/
def parse_create_view_statement : List Entry := [
  ⟨false, [.bool (some true)], 1152921504606846976, TOP,
    .node [⟨.CreateViewStatement, 100433627767648393869597886992016644644340140197517042647552, 12259964326927110877500605254238943870008647980886786048, 100433627766186892221372630771322682000450800945491347505152, 1152921504606846976⟩],
    TOP, TOP⟩,
  ⟨false, [.bool (some false)], 1152921504606846976, TOP,
    .node [⟨.CreateViewStatement, 100433627766186892232266984073812959811623857177861110104576, 12259964326927110877500605254238943870008647980886786048, 100433627766186892221372630771322682000450800945491347505152, 1152921504606846976⟩],
    TOP, TOP⟩]

/-- Summaries of `parse_create_function_statement`. -/
def parse_create_function_statement : List Entry := [
  ⟨false, [.bool (some true)], 1152921504606846976, TOP,
    .node [⟨.CreateFunctionStatement, 100434022864166619733183382039421344064166246657860516708872, 12259964326927110877500605254238943870008656776979808256, 100433627766186892221372630771322682604913710752805934858240, 1152921504606846976⟩],
    TOP, TOP⟩,
  ⟨false, [.bool (some false)], 1152921504606846976, TOP,
    .node [⟨.CreateFunctionStatement, 100434022862705118095852479121217659231449963638204584165896, 12259964326927110877500605254238943870008656776979808256, 100433627766186892221372630771322682604913710752805934858240, 1152921504606846976⟩],
    TOP, TOP⟩]

/-- Summaries of `parse_create_procedure_statement`. -/
def parse_create_procedure_statement : List Entry := [
  ⟨false, [.bool (some true)], 1152921504606846976, TOP,
    .node [⟨.CreateProcedureStatement, 6528185804990681705604912793498766876978148056427121940103680, 12259964326927110877500605254238943870008647980886786048, 100433627766186892221372630771322682604913710752805934858240, 1152921504606846976⟩],
    TOP, TOP⟩,
  ⟨false, [.bool (some false)], 1152921504606846976, TOP,
    .node [⟨.CreateProcedureStatement, 6528185804989220203967581890580563192145431773407466007560704, 12259964326927110877500605254238943870008647980886786048, 100433627766186892221372630771322682604913710752805934858240, 1152921504606846976⟩],
    TOP, TOP⟩]

/-- Summaries of `parse_create_row_access_policy_statement`. -/
def parse_create_row_access_policy_statement : List Entry := [
  ⟨false, [.bool (some true)], 1152921504606846976, TOP,
    .node [⟨.CreateRowAccessPolicyStatement, 25111471934089956470392106533084455677591006441258218422272, 100445887730513819332250131376576901601507695759405438992384, 125542034707733615276717117692149132581913718151125177204736, 1152921504606846976⟩],
    TOP, TOP⟩,
  ⟨false, [.bool (some false)], 1152921504606846976, TOP,
    .node [⟨.CreateRowAccessPolicyStatement, 25111471932628454833061203614880770844874723421602285879296, 100445887730513819332250131376576901601507695759405438992384, 125542034707733615276717117692149132581913718151125177204736, 1152921504606846976⟩],
    TOP, TOP⟩]

/-- Summaries of `parse_create_model_statement`. -/
def parse_create_model_statement : List Entry := [
  ⟨false, [.bool (some true)], 1152921504606846976, TOP,
    .node [⟨.CreateModelStatement, 101414424913802752284562521392652780179825980088573784752128, 12259964326927110877500605254238943870008647980886786048, 100433627766186892221372630771322682000450800945491347505152, 1152921504606846976⟩],
    TOP, TOP⟩,
  ⟨false, [.bool (some false)], 1152921504606846976, TOP,
    .node [⟨.CreateModelStatement, 101414424912341250647231618474449095347109697068917852209152, 12259964326927110877500605254238943870008647980886786048, 100433627766186892221372630771322682000450800945491347505152, 1152921504606846976⟩],
    TOP, TOP⟩]

/-- Summaries of `parse_alter_schema_statement`. -/
def parse_alter_schema_statement : List Entry := [
  ⟨false, [.bool (some true)], 33554432, TOP,
    .node [⟨.AlterSchemaStatement, 100433627770571397133370656437916876162091265515274754850817, 12259964326927110866866781287882245634322855231462834176, 100433627766186892221372630771322682000450800945491347505152, 33554432⟩],
    TOP, TOP⟩,
  ⟨false, [.bool (some false)], 33554432, TOP,
    .node [⟨.AlterSchemaStatement, 100433627769109895496039753519713191329374982495618822307841, 12259964326927110866866781287882245634322855231462834176, 100433627766186892221372630771322682000450800945491347505152, 33554432⟩],
    TOP, TOP⟩]

/-- Summaries of `parse_alter_table_statement`. -/
def parse_alter_table_statement : List Entry := [
  ⟨false, [.bool (some true)], 33554432, TOP,
    .node [⟨.AlterTableStatement, 100436692761653485723010549621941441351950865085828241031200, 12259964327640734713219761228411388619048165749607628806, 100433627766186892221372630771322682000450800945491347505152, 33554432⟩],
    TOP, TOP⟩,
  ⟨false, [.bool (some false)], 33554432, TOP,
    .node [⟨.AlterTableStatement, 100436692760191984085679646703737756519234582066172308488224, 12259964327640734713219761228411388619048165749607628806, 100433627766186892221372630771322682000450800945491347505152, 33554432⟩],
    TOP, TOP⟩]

/-- Summaries of `parse_alter_column_statement`. -/
def parse_alter_column_statement : List Entry := [
  ⟨false, [.bool (some true)], 33554432, TOP,
    .node [⟨.AlterColumnStatement, 102002903204418067324329603793718792766116854094366030954496, 12259964326927110866866781287882245634326232999902838784, 100433627766186892221372630771322682000450800945491347505152, 33554432⟩],
    TOP, TOP⟩,
  ⟨false, [.bool (some false)], 33554432, TOP,
    .node [⟨.AlterColumnStatement, 102002903202956565686998700875515107933400571074710098411520, 12259964326927110866866781287882245634326232999902838784, 100433627766186892221372630771322682000450800945491347505152, 33554432⟩],
    TOP, TOP⟩]

/-- Summaries of `parse_alter_vector_index_statement`. -/
def parse_alter_vector_index_statement : List Entry := [
  ⟨false, [.bool (some true)], 33554432, TOP,
    .node [⟨.AlterVectorIndexStatement, 100433627767648393858707521373513721580785795386328121081856, 12259964326927110866866781287882245634322855231462834176, 100433627766186892221376618455310036748069512366672188538880, 33554432⟩],
    4074071952668972172536891376818756322102936787331872501272280898708762599526673412366794495, TOP⟩,
  ⟨false, [.bool (some false)], 33554432, TOP,
    .node [⟨.AlterVectorIndexStatement, 100433627766186892221376618455310036748069512366672188538880, 12259964326927110866866781287882245634322855231462834176, 100433627766186892221376618455310036748069512366672188538880, 33554432⟩],
    4074071952668972172536891376818756322102936787331872501272280898708762599526673412366794495, TOP⟩]

/-- Summaries of `parse_alter_view_statement`. -/
def parse_alter_view_statement : List Entry := [
  ⟨false, [.bool (some true)], 33554432, TOP,
    .node [⟨.AlterViewStatement, 100433627770571397133370657086953983478944718799012307664928, 12259964326927110866866781287882245634322855231462834176, 100433627766186892221372630771322682000450800945491347505152, 33554432⟩],
    TOP, TOP⟩,
  ⟨false, [.bool (some false)], 33554432, TOP,
    .node [⟨.AlterViewStatement, 100433627769109895496039754168750298646228435779356375121952, 12259964326927110866866781287882245634322855231462834176, 100433627766186892221372630771322682000450800945491347505152, 33554432⟩],
    TOP, TOP⟩]

/-- Summaries of `parse_alter_organization_statement`. -/
def parse_alter_organization_statement : List Entry := [
  ⟨false, [.bool (some true)], 33554432, TOP,
    .node [⟨.AlterOrganizationStatement, 100433627770571397133370656437916856819278151398633471213568, 12259964326927110866866781287804874381867518964281638912, 100433627769109895496039753519713171986561868378977538670592, 33554432⟩],
    TOP, TOP⟩,
  ⟨false, [.bool (some false)], 33554432, TOP,
    .node [⟨.AlterOrganizationStatement, 100433627769109895496039753519713171986561868378977538670592, 12259964326927110866866781287804874381867518964281638912, 100433627769109895496039753519713171986561868378977538670592, 33554432⟩],
    TOP, TOP⟩]

/-- Summaries of `parse_alter_project_statement`. -/
def parse_alter_project_statement : List Entry := [
  ⟨false, [.bool (some true)], 33554432, TOP,
    .node [⟨.AlterProjectStatement, 100433627770571397133370656437916876162091265232700266512384, 12259964326927110866866781287804874381867518964281638912, 100433627769109895496039753519713171986561868378977538670592, 33554432⟩],
    TOP, TOP⟩,
  ⟨false, [.bool (some false)], 33554432, TOP,
    .node [⟨.AlterProjectStatement, 100433627769109895496039753519713191329374982213044333969408, 12259964326927110866866781287804874381867518964281638912, 100433627769109895496039753519713171986561868378977538670592, 33554432⟩],
    TOP, TOP⟩]

/-- Summaries of `parse_alter_bicapacity_statement`. -/
def parse_alter_bicapacity_statement : List Entry := [
  ⟨false, [.bool (some true)], 33554432, TOP,
    .node [⟨.AlterBICapacityStatement, 100433627770571397133370656437916876162091265232700266512384, 12259964326927110866866781287804874381867518964281638912, 100433627769109895496039753519713191329374982213044333969408, 33554432⟩],
    TOP, TOP⟩,
  ⟨false, [.bool (some false)], 33554432, TOP,
    .node [⟨.AlterBICapacityStatement, 100433627769109895496039753519713191329374982213044333969408, 12259964326927110866866781287804874381867518964281638912, 100433627769109895496039753519713191329374982213044333969408, 33554432⟩],
    TOP, TOP⟩]

/-- Summaries of `parse_alter_reservation_statement`. -/
def parse_alter_reservation_statement : List Entry := [
  ⟨false, [.bool (some true)], 33554432, TOP,
    .node [⟨.AlterReservationStatement, 100433627770571397133370656437916876162091265232700266512384, 12259964326927110866866781287804874381867518964281638912, 100433627769109895496039753519713191329374982213044333969408, 33554432⟩],
    TOP, TOP⟩,
  ⟨false, [.bool (some false)], 33554432, TOP,
    .node [⟨.AlterReservationStatement, 100433627769109895496039753519713191329374982213044333969408, 12259964326927110866866781287804874381867518964281638912, 100433627769109895496039753519713191329374982213044333969408, 33554432⟩],
    TOP, TOP⟩]

/-- Summaries of `parse_alter_model_statement`. -/
def parse_alter_model_statement : List Entry := [
  ⟨false, [.bool (some true)], 33554432, TOP,
    .node [⟨.AlterModelStatement, 100433627770571397133370656437916876162091265232700266512384, 12259964326927110866866781287882245634322855231462834176, 100433627769109895496039753519713191329374982213044333969408, 33554432⟩],
    TOP, TOP⟩,
  ⟨false, [.bool (some false)], 33554432, TOP,
    .node [⟨.AlterModelStatement, 100433627769109895496039753519713191329374982213044333969408, 12259964326927110866866781287882245634322855231462834176, 100433627769109895496039753519713191329374982213044333969408, 33554432⟩],
    TOP, TOP⟩]

/-- Summaries of `parse_drop_row_access_policy_statement`. -/
def parse_drop_row_access_policy_statement : List Entry := [
  ⟨false, [.bool (some true)], 37778931862957161709568, TOP,
    .node [⟨.DropRowAccessPolicyStatement, 1461501637332232146199489091402300660783008186368, 100445887730513819332239497552610544903272009966656015040512, 100433627766186892221373959999318447573510590918484832550912, 37778931862957161709568⟩],
    TOP, TOP⟩,
  ⟨false, [.bool (some false)], 37778931862957161709568, TOP,
    .node [⟨.DropRowAccessPolicyStatement, 1329227995804258686017641127075643392, 100445887730513819332239497552610544903272009966656015040512, 100433627766186892221373959999318447573510590918484832550912, 37778931862957161709568⟩],
    TOP, 4074071952668972172536891376818756322102936787331872501272280898708762599526673412366794495⟩]

/-- Summaries of `parse_drop_statement_general`. -/
def parse_drop_statement_general : List Entry := [
  ⟨false, [.bool (some true)], 37778931862957161709568, TOP,
    .node [⟨.DropStatement, 100433639740269806873461569491145408677757725336213831843840, 12259964326927110866866781287882245634322855231462834176, 100433627766186892221372630771322682000450800945491347505152, 37778931862957161709568⟩],
    TOP, TOP⟩,
  ⟨false, [.bool (some false)], 37778931862957161709568, TOP,
    .node [⟨.DropStatement, 100433639738808305236130666572941723845041442316557899300864, 12259964326927110866866781287882245634322855231462834176, 100433627766186892221372630771322682000450800945491347505152, 37778931862957161709568⟩],
    TOP, TOP⟩]

/-- Summaries of `parse_undrop_statement`. -/
def parse_undrop_statement : List Entry := [
  ⟨false, [.bool (some true)], 52656145834278593348959013841835216159447547700274555627155488768, TOP,
    .node [⟨.UndropStatement, 100433627767648393858703533689526366833167083965147280048128, 12259964326927110866866781287959616886778191498644029440, 100433627766186892221372630771322682000450800945491347505152, 52656145834278593348959013841835216159447547700274555627155488768⟩],
    TOP, TOP⟩,
  ⟨false, [.bool (some false)], 52656145834278593348959013841835216159447547700274555627155488768, TOP,
    .node [⟨.UndropStatement, 100433627766186892221372630771322682000450800945491347505152, 12259964326927110866866781287959616886778191498644029440, 100433627766186892221372630771322682000450800945491347505152, 52656145834278593348959013841835216159447547700274555627155488768⟩],
    TOP, 4074071952668972172536891376818756322102936787331872501272280898708762599526673412366794495⟩]

/-- Summaries of `parse_grant_statement`. -/
def parse_grant_statement : List Entry := [
  ⟨false, [.bool (some true)], 2535301200456458802993406410752, TOP,
    .node [⟨.GrantStatement, 3064992546087910434360760015906281708437129300140883968, 12259964509614815533229646063265478471402896421273206784, 3064991267273977769820706587682053081689487101199908864, 2535301200456458802993406410752⟩],
    TOP, TOP⟩,
  ⟨false, [.bool (some false)], 2535301200456458802993406410752, TOP,
    .node [⟨.GrantStatement, 3064991084586273103457841812221448992154109644208340992, 12259964509614815533229646063265478471402896421273206784, 3064991267273977769820706587682053081689487101199908864, 2535301200456458802993406410752⟩],
    TOP, TOP⟩]

/-- Summaries of `parse_revoke_statement`. -/
def parse_revoke_statement : List Entry := [
  ⟨false, [.bool (some true)], 12259964326927110866866776217202473468949912977468817408, TOP,
    .node [⟨.RevokeStatement, 1464356132717644065961605701120131514012935389184, 12259964509614815533229646063265478471402896421273206784, 185542200053104012533381472493383871813994414080, 12259964326927110866866776217202473468949912977468817408⟩],
    TOP, TOP⟩,
  ⟨false, [.bool (some false)], 12259964326927110866866776217202473468949912977468817408, TOP,
    .node [⟨.RevokeStatement, 2854495386741147757920868403848494357002846208, 12259964509614815533229646063265478471402896421273206784, 185542200053104012533381472493383871813994414080, 12259964326927110866866776217202473468949912977468817408⟩],
    TOP, TOP⟩]

/-- Summaries of `parse_create_reservation_statement`. -/
def parse_create_reservation_statement : List Entry := [
  ⟨false, [.bool (some true)], 1152921504606846976, TOP,
    .node [⟨.CreateReservationStatement, 100433627767648393858708850601747190984201492206169033277952, 12259964326927110866866781287804874381867518964281638912, 100433627766186892221372630771322682000450800945491347505152, 1152921504606846976⟩],
    TOP, TOP⟩,
  ⟨false, [.bool (some false)], 1152921504606846976, TOP,
    .node [⟨.CreateReservationStatement, 100433627766186892221377947683543506151485209186513100734976, 12259964326927110866866781287804874381867518964281638912, 100433627766186892221372630771322682000450800945491347505152, 1152921504606846976⟩],
    TOP, TOP⟩]

/-- Summaries of `parse_declare_statement`. -/
def parse_declare_statement : List Entry := [
  ⟨false, [.bool (some true)], 295147905179352825856, TOP,
    .node [⟨.DeclareStatement, 50216813884554947748017218303865016161535126575917964460032, 12259964326927110866866781287843560008095187097872236544, 38685626227668133590597632, 295147905179352825856⟩],
    TOP, TOP⟩,
  ⟨false, [.bool (some false)], 295147905179352825856, TOP,
    .node [⟨.DeclareStatement, 50216813883093446110686315385661331328818843556262031917056, 12259964326927110866866781287843560008095187097872236544, 38685626227668133590597632, 295147905179352825856⟩],
    TOP, TOP⟩]

/-- Summaries of `parse_set_statement`. -/
def parse_set_statement : List Entry := [
  ⟨false, [.bool (some true)], 12554203470773361527671578846415332832204710888928069025792, TOP,
    .node [⟨.SetStatement, 1461501637330902918203684832734729763729642094592, 12259964326927110866866781287804874381867518964281638912, 18446744073709551616, 12554203470773361527671578846415332832204710888928069025792⟩],
    TOP, TOP⟩,
  ⟨false, [.bool (some false)], 12554203470773361527671578846415332832204710888928069025792, TOP,
    .node [⟨.SetStatement, 18446744073709551616, 12259964326927110866866781287804874381867518964281638912, 18446744073709551616, 12554203470773361527671578846415332832204710888928069025792⟩],
    TOP, TOP⟩]

/-- Summaries of `parse_execute_statement`. -/
def parse_execute_statement : List Entry := [
  ⟨false, [.bool (some true)], 38685626227668133590597632, TOP,
    .node [⟨.ExecuteStatement, 25108406989776277087262953993572691154694970201037747519488, 12259964326927110866866781287804874381867518964281638912, 46768052394588893382518533616940699319127290937344, 38685626227668133590597632⟩],
    TOP, TOP⟩,
  ⟨false, [.bool (some false)], 38685626227668133590597632, TOP,
    .node [⟨.ExecuteStatement, 25108406988314775449932051075369006321978687181381814976512, 12259964326927110866866781287804874381867518964281638912, 46768052394588893382518533616940699319127290937344, 38685626227668133590597632⟩],
    TOP, TOP⟩]

/-- Summaries of `parse_begin_statement`. -/
def parse_begin_statement : List Entry := [
  ⟨false, [.bool (some true)], 68719476736, TOP,
    .node [⟨.BeginStatement, 766249231934581760082091717259987308110403615533826048, 12260338471346267578013841431122049759543922919867416576, 18014398509481984, 68719476736⟩],
    TOP, TOP⟩,
  ⟨false, [.bool (some false)], 68719476736, TOP,
    .node [⟨.BeginStatement, 766247770432944429179173513575154591827383959601283072, 12260338471346267578013841431122049759543922919867416576, 18014398509481984, 68719476736⟩],
    TOP, TOP⟩]

/-- Summaries of `parse_if_statement`. -/
def parse_if_statement : List Entry := [
  ⟨false, [.bool (some true)], 162259276829213363391578010288128, TOP,
    .node [⟨.IfStatement, 766249231934581760082091717259987308096892816920150016, 12259964326927110866866781287804874382020641351612235776, 766247770432944429179173513575154591953484749436092416, 162259276829213363391578010288128⟩],
    TOP, TOP⟩,
  ⟨false, [.bool (some false)], 162259276829213363391578010288128, TOP,
    .node [⟨.IfStatement, 766247770432944429179173513575154591813873160987607040, 12259964326927110866866781287804874382020641351612235776, 766247770432944429179173513575154591953484749436092416, 162259276829213363391578010288128⟩],
    TOP, TOP⟩]

/-- Summaries of `parse_labeled_statement`. -/
def parse_labeled_statement : List Entry := [
  ⟨false, [.bool (some true)], 4074071952668972172535811234717220640314461915980124905174786634128628299617680864678248443, TOP,
    .node [⟨.AlterColumnStatement, 102051943061725775767797070908728807461818488958249533964288, 12259964326927110866866781287882245634326232999902838784, 100433627766186892221372630781463886802276636157464975245312, 33554432⟩,
      ⟨.AlterBICapacityStatement, 100482667627879105576838123552926890857792900096583769522176, 12259964326927110866866781287804874381867518964281638912, 100433627769109895496039753529854396131200817425017961709568, 33554432⟩,
      ⟨.AlterModelStatement, 100482667627879105576838123552926890857792900096583769522176, 12259964326927110866866781287882245634322855231462834176, 100433627769109895496039753529854396131200817425017961709568, 33554432⟩,
      ⟨.AlterOrganizationStatement, 100482667627879105576838123552926871514979786262516974223360, 12259964326927110866866781287804874381867518964281638912, 100433627769109895496039753529854376788387703590951166410752, 33554432⟩,
      ⟨.AlterProjectStatement, 100482667627879105576838123552926890857792900096583769522176, 12259964326927110866866781287804874381867518964281638912, 100433627769109895496039753529854376788387703590951166410752, 33554432⟩,
      ⟨.AlterReservationStatement, 100482667627879105576838123552926890857792900096583769522176, 12259964326927110866866781287804874381867518964281638912, 100433627769109895496039753529854396131200817425017961709568, 33554432⟩,
      ⟨.AlterSchemaStatement, 100482667627879105576838123552926890857792900379158257860609, 12259964326927110866866781287882245634322855231462834176, 100433627766186892221372630781463886802276636157464975245312, 33554432⟩,
      ⟨.AlterTableStatement, 100485732618961194166478016736951456047652499949711744040992, 12259964327640734713219761228411388619048165749607628806, 100433627766186892221372630781463886802276636157464975245312, 33554432⟩,
      ⟨.AlterVectorIndexStatement, 100482667624956102302174988488523736276487430250211624091648, 12259964326927110866866781287882245634322855231462834176, 100433627766186892221376618465451241549895347578645816279040, 33554432⟩,
      ⟨.AlterViewStatement, 100482667627879105576838124201963998174646353662895810674720, 12259964326927110866866781287882245634322855231462834176, 100433627766186892221372630781463886802276636157464975245312, 33554432⟩,
      ⟨.AssertStatement, 49039858769210080798370033213699528436364632011191616000, 12259964326927110866866781287804874381867518964281638912, 10141204801844281956047337291776, 2147483648⟩,
      ⟨.BeginStatement, 49806106539643025227549206727274683009745267499036835840, 12260338471346267578013841431122049759543922919867416576, 10141204801825853226372137222144, 68719476736⟩,
      ⟨.BreakContinueStatement, 49039858769210080798370034481350128646147285036138758144, 12259964326927110866866781287804874381867518964281638912, 10141204801825835211973627740160, 85735205728127073802439674974204592128⟩,
      ⟨.CallStatement, 49039858769210777696657487295672701409113903800732614656, 12259964326927110866866781287804874381867518964281638912, 696898287464223177974817031232234924802048, 17592186044416⟩,
      ⟨.CaseStatement, 49039858769210080798370033213699528436364627613145104384, 12259964326927110866866781287804874381903547761300603136, 10141204801825871240770646704384, 140737488355328⟩,
      ⟨.CreateFunctionStatement, 100483062721474328176650849154431358759867881521744019718664, 12259964326927110877500605254238943870008656776979808256, 100433627766186892221372630781463887406739545964779562598400, 1152921504606846976⟩,
      ⟨.CreateIndexStatement, 100482716263730592685515800504616569736960119451583806177280, 12259964326927110877500605254238943870008647980886786048, 100433675656672544280400783707804270165311528050122832216064, 1152921504606846976⟩,
      ⟨.CreateModelStatement, 101463464771110460728029988507662794875527614952457287761920, 12259964326927110877500605254238943870008647980886786048, 100433627766186892221372630781463886802276636157464975245312, 1152921504606846976⟩,
      ⟨.CreateProcedureStatement, 6528234844847989414048380260613776891673849691291005443113472, 12259964326927110877500605254238943870008647980886786048, 100433627766186892221372630781463887406739545964779562598400, 1152921504606846976⟩,
      ⟨.CreateReservationStatement, 100482667624956102302176317716757205679903127070052536287744, 12259964326927110866866781287804874381867518964281638912, 100433627766186892221372630781463886802276636157464975245312, 1152921504606846976⟩,
      ⟨.CreateRowAccessPolicyStatement, 25160511791397664913859573648094470373292641305141721432064, 100445887730513819332250131376576901601507695759405438992384, 125542034707733615276717117702290337383739553363098804944896, 1152921504606846976⟩,
      ⟨.CreateSchemaStatement, 6528234844660917204470024687081169931281246096165837595475968, 12259964326927110866866781287959616886778191498644029440, 100433627766186892221372630781463886802276636157464975245312, 1152921504606846976⟩,
      ⟨.CreateTableStatement, 32239243935963722868920463459945451645237112022132757006909952, 12259964326927110877500605254238943870008647980886786048, 100433627766186892221372630781463886802276636157464975245312, 1152921504606846976⟩,
      ⟨.CreateViewStatement, 100482667624956102313065354107026659340041775061400545657344, 12259964326927110877500605254238943870008647980886786048, 100433627766186892221372630781463886802276636157464975245312, 1152921504606846976⟩,
      ⟨.DeclareStatement, 50265853741862656191484685418875030857236761439801467469824, 12259964326927110866866781287843560008095187097872236544, 10141243487452062880107218337792, 295147905179352825856⟩,
      ⟨.DeleteStatement, 401783574868759604995802304967676649420328592234993590206464, 12259964326927110866866781287804874381867518964281638912, 401734535009990394915003934944604154655957577700470620684288, 2361183241434822606848⟩,
      ⟨.DropStatement, 100482679597577515316929036606155423373459360200097334853632, 12259964326927110866866781287882245634322855231462834176, 100433627766186892221372630781463886802276636157464975245312, 37778931862957161709568⟩,
      ⟨.DropRowAccessPolicyStatement, 49039858769210080799699261209503787103935524666511196160, 100445887730513819332239497552610544903272009966656015040512, 100433627766186892221373960009459652375336426130458460291072, 37778931862957161709568⟩,
      ⟨.ExecuteStatement, 25157446847083985530730421108582705850396605064921250529280, 12259964326927110866866781287804874381867518964281638912, 46768052394588893392659738418766534531100918677504, 38685626227668133590597632⟩,
      ⟨.ExportDataStatement, 6427801216894730312248652056309847249280721508242986257875456, 12259964326927110866866781287804874381867518964281638912, 5316922124344465317450440249108857344, 154742504910672534362390528⟩,
      ⟨.ExportModelStatement, 100482667624956102302176317716519521192360334057271904436224, 12259964326927110866866781287804874381867518964281638912, 100433627766186892221372630781463886802276636157464975245312, 154742504910672534362390528⟩,
      ⟨.ForStatement, 49039858769210080798370033214956811270317238618618331136, 12259964326927110866866781287804874381939576558319566848, 10142462084678306624646848446464, 39614081257132168796771975168⟩,
      ⟨.FromStatement, 3213925128376749761164722554715538904572842352193198815707136, 12259964326927110866866781287804874381867518964281638912, 10141204801844281956047337291776, 316912650057057350374175801344⟩,
      ⟨.GrantStatement, 52104849853796353901827875025920977410071993183643893760, 12259964509614815533229646063265478471402896421273206784, 3064991267273977769820716728886854907524699074827649024, 2535301200456458802993406410752⟩,
      ⟨.GroupedStatement, 3213925128564552721561786115081707161299405876996630414098432, 12259964326927110866866781287804874381867518964281638912, 187802960397021024999314705805868203237760959512576, 4⟩,
      ⟨.IfStatement, 49806106539643025227549206727274683009731756700423159808, 12259964326927110866866781287804874382020641351612235776, 766247770432944429179183654779956417788696723063832576, 162259276829213363391578010288128⟩,
      ⟨.InsertStatement, 49231420711818316905664826621803878008719352527354593280, 12259964326927110866866781287804874381867518964281638912, 10151108322140118254172820733952, 20769187434139310514121985316880384⟩,
      ⟨.LoadStatement, 28924933836520594169848371514295297295773613678387328209911808, 12259964326927110866866781287804874381867518964281638912, 10161031299194606529703359545344, 1361129467683753853853498429727072845824⟩,
      ⟨.LoopStatement, 49039858769210080798370033213699528417917883539435552768, 12260338471346267578013841431122049750608781259164352512, 374144419156711147070284521977194576474268510453760, TOP⟩,
      ⟨.MergeStatement, 25157470745558759165656268803232256372909803595653024055296, 200879515496700711553612128323933130189657241741813386051584, 225975686419163333527603160322785279920964529062537934667776, 87112285931760246646623899502532662132736⟩,
      ⟨.PipeStatement, 3213925128376772597127805850093918246751986767795254481387520, 12259964326927110866866781287804874381867518964281638912, 22835963083295388520546980988697558103002972160, 110427941548649020598956093796432407239217743554726184882600387580788736⟩,
      ⟨.RaiseStatement, 25157446800315933136141527726044365192827339661395573604352, 12259964326927110866866781287804874381867518964281638912, 10141204801825835211973627740160, 374144419156711147060143317175368453031918731001856⟩,
      ⟨.RepeatStatement, 12603243329542571608469948879629032360622628772467504578560, 12260338471346267578013841431122049750897011635316064256, 12554203844917780684382725916699854809399575593572731191296, TOP⟩,
      ⟨.RevokeStatement, 49039858772064576185111180971620396821766377896438398976, 12259964509614815533229646063265478471402896421273206784, 185542200053104022674586274319219083787622154240, 12259964326927110866866776217202473468949912977468817408⟩,
      ⟨.SelectStatement, 4419128661570992469215033234256569564615406176372524268388352, 12259964326927110866866781287804874418761007111700743168, 10141204801862728700121046843392, 4074071952668972172536028658525407501629507442849087873090724510087241301207278096838819835⟩,
      ⟨.SetOperator, 3213925128376772597127848390663209861009353999917846120898560, 12259964326927110866866781287804874381867518964281638912, 22835963083295388520546980988697628471747149824, TOP⟩,
      ⟨.SetStatement, 49039858769210080798370033213699528436364627613145104384, 12259964326927110866866781287804874381867518964281638912, 10141204801844281956047337291776, 12554203470773361527671578846415332832204710888928069025792⟩,
      ⟨.SingleTokenStatement, 49039858769210080798370033213699528417917883539435552768, 12259964326927110866866781287804874381867518964281638912, 10141204801825835211973627740160, 3064991081731777716716694054300618367237478244367204352⟩,
      ⟨.TransactionStatement, 441358717230877628538106872164178679424315098818437709824, 12259964326927110866866781287804874381867518964281638912, 10141204801825835211973627740160, 49039857307708443467467104868809893875808659177849487360⟩,
      ⟨.TruncateStatement, 49075776633449125068487806972148363789408947737611730944, 12259964326927110866866781287804874381867518964281638912, 35917864239044270117783899653637197326276171803918336, 6582018229284824168619876730229402019930943462534319453394436096⟩,
      ⟨.UndropStatement, 100482667624956102302171000804536381528868718829030783057920, 12259964326927110866866781287959616886778191498644029440, 100433627766186892221372630781463886802276636157464975245312, 52656145834278593348959013841835216159447547700274555627155488768⟩,
      ⟨.UpdateStatement, 401783574871682608270464110804084019085761158274305455292416, 12259964326927110866866781287804874381867518964281638912, 2923003274661805846548574467258401251285492826112, 1684996666696914987166688442938726917102321526408785780068975640576⟩,
      ⟨.WhileStatement, 49039858769210080798370033213699528417918024277192343552, 12259964326927110866866781287804874383020440468888485888, 10141204801826988274215991377920, 215679573337205118357336120696157045389097155380324579848828881993728⟩],
    TOP, TOP⟩,
  ⟨false, [.bool (some false)], 4074071952668972172535811234717220640314461915980124905174786634128628299617680864678248443, TOP,
    .node [⟨.AlterColumnStatement, 102051943060264274130466167990525122629102205938593601421312, 12259964326927110866866781287882245634326232999902838784, 100433627766186892221372630781463886802276636157464975245312, 33554432⟩,
      ⟨.AlterBICapacityStatement, 100482667626417603939507220634723206025076617076927836979200, 12259964326927110866866781287804874381867518964281638912, 100433627769109895496039753529854396131200817425017961709568, 33554432⟩,
      ⟨.AlterModelStatement, 100482667626417603939507220634723206025076617076927836979200, 12259964326927110866866781287882245634322855231462834176, 100433627769109895496039753529854396131200817425017961709568, 33554432⟩,
      ⟨.AlterOrganizationStatement, 100482667626417603939507220634723186682263503242861041680384, 12259964326927110866866781287804874381867518964281638912, 100433627769109895496039753529854376788387703590951166410752, 33554432⟩,
      ⟨.AlterProjectStatement, 100482667626417603939507220634723206025076617076927836979200, 12259964326927110866866781287804874381867518964281638912, 100433627769109895496039753529854376788387703590951166410752, 33554432⟩,
      ⟨.AlterReservationStatement, 100482667626417603939507220634723206025076617076927836979200, 12259964326927110866866781287804874381867518964281638912, 100433627769109895496039753529854396131200817425017961709568, 33554432⟩,
      ⟨.AlterSchemaStatement, 100482667626417603939507220634723206025076617359502325317633, 12259964326927110866866781287882245634322855231462834176, 100433627766186892221372630781463886802276636157464975245312, 33554432⟩,
      ⟨.AlterTableStatement, 100485732617499692529147113818747771214936216930055811498016, 12259964327640734713219761228411388619048165749607628806, 100433627766186892221372630781463886802276636157464975245312, 33554432⟩,
      ⟨.AlterVectorIndexStatement, 100482667623494600664844085570320051443771147230555691548672, 12259964326927110866866781287882245634322855231462834176, 100433627766186892221376618465451241549895347578645816279040, 33554432⟩,
      ⟨.AlterViewStatement, 100482667626417603939507221283760313341930070643239878131744, 12259964326927110866866781287882245634322855231462834176, 100433627766186892221372630781463886802276636157464975245312, 33554432⟩,
      ⟨.AssertStatement, 49039857307708443467467115010014695720081612355259073024, 12259964326927110866866781287804874381867518964281638912, 10141204801844281956047337291776, 2147483648⟩,
      ⟨.BeginStatement, 49806105078141387896646288523589850293462247843104292864, 12260338471346267578013841431122049759543922919867416576, 10141204801825853226372137222144, 68719476736⟩,
      ⟨.BreakContinueStatement, 49039857307708443467467116277665295929864265380206215168, 12259964326927110866866781287804874381867518964281638912, 10141204801825835211973627740160, 85735205728127073802439674974204592128⟩,
      ⟨.CallStatement, 49039857307709140365754569091987868692830884144800071680, 12259964326927110866866781287804874381867518964281638912, 696898287464223177974817031232234924802048, 17592186044416⟩,
      ⟨.CaseStatement, 49039857307708443467467115010014695720081607957212561408, 12259964326927110866866781287804874381903547761300603136, 10141204801825871240770646704384, 140737488355328⟩,
      ⟨.CreateFunctionStatement, 100483062720012826539319946236227673927151598502088087175688, 12259964326927110877500605254238943870008656776979808256, 100433627766186892221372630781463887406739545964779562598400, 1152921504606846976⟩,
      ⟨.CreateIndexStatement, 100482716262269091048184897586412884904243836431927873634304, 12259964326927110877500605254238943870008647980886786048, 100433675656672544280400783707804270165311528050122832216064, 1152921504606846976⟩,
      ⟨.CreateModelStatement, 101463464769648959090699085589459110042811331932801355218944, 12259964326927110877500605254238943870008647980886786048, 100433627766186892221372630781463886802276636157464975245312, 1152921504606846976⟩,
      ⟨.CreateProcedureStatement, 6528234844846527912411049357695573206841133408271349510570496, 12259964326927110877500605254238943870008647980886786048, 100433627766186892221372630781463887406739545964779562598400, 1152921504606846976⟩,
      ⟨.CreateReservationStatement, 100482667623494600664845414798553520847186844050396603744768, 12259964326927110866866781287804874381867518964281638912, 100433627766186892221372630781463886802276636157464975245312, 1152921504606846976⟩,
      ⟨.CreateRowAccessPolicyStatement, 25160511789936163276528670729890785540576358285485788889088, 100445887730513819332250131376576901601507695759405438992384, 125542034707733615276717117702290337383739553363098804944896, 1152921504606846976⟩,
      ⟨.CreateSchemaStatement, 6528234844659455702832693784162966246448529813146181662932992, 12259964326927110866866781287959616886778191498644029440, 100433627766186892221372630781463886802276636157464975245312, 1152921504606846976⟩,
      ⟨.CreateTableStatement, 32239243935962261367283132557027247960404395739113101074366976, 12259964326927110877500605254238943870008647980886786048, 100433627766186892221372630781463886802276636157464975245312, 1152921504606846976⟩,
      ⟨.CreateViewStatement, 100482667623494600675734451188822974507325492041744613114368, 12259964326927110877500605254238943870008647980886786048, 100433627766186892221372630781463886802276636157464975245312, 1152921504606846976⟩,
      ⟨.DeclareStatement, 50265853740401154554153782500671346024520478420145534926848, 12259964326927110866866781287843560008095187097872236544, 10141243487452062880107218337792, 295147905179352825856⟩,
      ⟨.DeleteStatement, 401783574867298103358471402049472964587612309215337657663488, 12259964326927110866866781287804874381867518964281638912, 401734535009990394915003934944604154655957577700470620684288, 2361183241434822606848⟩,
      ⟨.DropStatement, 100482679596116013679598133687951738540743077180441402310656, 12259964326927110866866781287882245634322855231462834176, 100433627766186892221372630781463886802276636157464975245312, 37778931862957161709568⟩,
      ⟨.DropRowAccessPolicyStatement, 49039857307708443468796343005818954387652505010578653184, 100445887730513819332239497552610544903272009966656015040512, 100433627766186892221373960009459652375336426130458460291072, 37778931862957161709568⟩,
      ⟨.ExecuteStatement, 25157446845622483893399518190379021017680322045265317986304, 12259964326927110866866781287804874381867518964281638912, 46768052394588893392659738418766534531100918677504, 38685626227668133590597632⟩,
      ⟨.ExportDataStatement, 6427801216893268810611321153391643564448005225223330325332480, 12259964326927110866866781287804874381867518964281638912, 5316922124344465317450440249108857344, 154742504910672534362390528⟩,
      ⟨.ExportModelStatement, 100482667623494600664845414798315836359644051037615971893248, 12259964326927110866866781287804874381867518964281638912, 100433627766186892221372630781463886802276636157464975245312, 154742504910672534362390528⟩,
      ⟨.ForStatement, 49039857307708443467467115011271978554034218962685788160, 12259964326927110866866781287804874381939576558319566848, 10142462084678306624646848446464, 39614081257132168796771975168⟩,
      ⟨.FromStatement, 3213925128376749761164722554715538904572842352193198815707136, 12259964326927110866866781287804874381867518964281638912, 10141204801844281956047337291776, 316912650057057350374175801344⟩,
      ⟨.GrantStatement, 52104848392294716570924956822236144693788973527711350784, 12259964509614815533229646063265478471402896421273206784, 3064991267273977769820716728886854907524699074827649024, 2535301200456458802993406410752⟩,
      ⟨.GroupedStatement, 3213925128563091219924455212163503476466689593976974481555456, 12259964326927110866866781287804874381867518964281638912, 187802960397021024999314705805868203237760959512576, 4⟩,
      ⟨.IfStatement, 49806105078141387896646288523589850293448737044490616832, 12259964326927110866866781287804874382020641351612235776, 766247770432944429179183654779956417788696723063832576, 162259276829213363391578010288128⟩,
      ⟨.InsertStatement, 49231419250316679574761908418119045292436332871422050304, 12259964326927110866866781287804874381867518964281638912, 10151108322140118254172820733952, 20769187434139310514121985316880384⟩,
      ⟨.LoadStatement, 28924933836519132668211040611377093610940897395367672277368832, 12259964326927110866866781287804874381867518964281638912, 10161031299194606529703359545344, 1361129467683753853853498429727072845824⟩,
      ⟨.LoopStatement, 49039857307708443467467115010014695701634863883503009792, 12260338471346267578013841431122049750608781259164352512, 374144419156711147070284521977194576474268510453760, TOP⟩,
      ⟨.MergeStatement, 25157470745558759165656268803232256372909803595653024055296, 200879515496700711553612128323933130189657241741813386051584, 225975686419163333527603160322785279920964529062537934667776, 87112285931760246646623899502532662132736⟩,
      ⟨.PipeStatement, 3213925128376772597127805850093918246751986767795254481387520, 12259964326927110866866781287804874381867518964281638912, 22835963083295388520546980988697558103002972160, 110427941548649020598956093796432407239217743554726184882600387580788736⟩,
      ⟨.RaiseStatement, 25157446798854431498810624807840680360111056641739641061376, 12259964326927110866866781287804874381867518964281638912, 10141204801825835211973627740160, 374144419156711147060143317175368453031918731001856⟩,
      ⟨.RepeatStatement, 12603243328081069971139045961425347527906345752811572035584, 12260338471346267578013841431122049750897011635316064256, 12554203844917780684382725916699854809399575593572731191296, TOP⟩,
      ⟨.RevokeStatement, 49039857310562938854208262767935564105483358240505856000, 12259964509614815533229646063265478471402896421273206784, 185542200053104022674586274319219083787622154240, 12259964326927110866866776217202473468949912977468817408⟩,
      ⟨.SelectStatement, 4419128661569530967577702331338365879782689893352868335845376, 12259964326927110866866781287804874418761007111700743168, 10141204801862728700121046843392, 4074071952668972172536028658525407501629507442849087873090724510087241301207278096838819835⟩,
      ⟨.SetOperator, 3213925128375311095490517487745006176176637716898190188355584, 12259964326927110866866781287804874381867518964281638912, 22835963083295388520546980988697628471747149824, TOP⟩,
      ⟨.SetStatement, 49039857307708443467467115010014695720081607957212561408, 12259964326927110866866781287804874381867518964281638912, 10141204801844281956047337291776, 12554203470773361527671578846415332832204710888928069025792⟩,
      ⟨.SingleTokenStatement, 49039857307708443467467115010014695701634863883503009792, 12259964326927110866866781287804874381867518964281638912, 10141204801825835211973627740160, 3064991081731777716716694054300618367237478244367204352⟩,
      ⟨.TransactionStatement, 441358715769375991207203953960493846708032079162505166848, 12259964326927110866866781287804874381867518964281638912, 10141204801825835211973627740160, 49039857307708443467467104868809893875808659177849487360⟩,
      ⟨.TruncateStatement, 49075775171947487737584888768463531073125928081679187968, 12259964326927110866866781287804874381867518964281638912, 35917864239044270117783899653637197326276171803918336, 6582018229284824168619876730229402019930943462534319453394436096⟩,
      ⟨.UndropStatement, 100482667623494600664840097886332696696152435809374850514944, 12259964326927110866866781287959616886778191498644029440, 100433627766186892221372630781463886802276636157464975245312, 52656145834278593348959013841835216159447547700274555627155488768⟩,
      ⟨.UpdateStatement, 401783574870221106633133207885880334253044875254649522749440, 12259964326927110866866781287804874381867518964281638912, 2923003274661805846548574467258401251285492826112, 1684996666696914987166688442938726917102321526408785780068975640576⟩,
      ⟨.WhileStatement, 49039857307708443467467115010014695701635004621259800576, 12259964326927110866866781287804874383020440468888485888, 10141204801826988274215991377920, 215679573337205118357336120696157045389097155380324579848828881993728⟩],
    TOP, TOP⟩]

/-- Summaries of `parse_break_continue_statement`. -/
def parse_break_continue_statement : List Entry := [
  ⟨false, [.bool (some true)], 85735205728127073802439674974204592128, TOP,
    .node [⟨.BreakContinueStatement, 1461501637330902919471335432944512421152635748352, 12259964326927110866866781287804874381867518964281638912, 0, 85735205728127073802439674974204592128⟩],
    TOP, TOP⟩,
  ⟨false, [.bool (some false)], 85735205728127073802439674974204592128, TOP,
    .node [⟨.BreakContinueStatement, 1267650600228229401496703205376, 12259964326927110866866781287804874381867518964281638912, 0, 85735205728127073802439674974204592128⟩],
    4074071952668972172536891376818756322102936787331872501272280898708762599526673412366793727, TOP⟩]

/-- Summaries of `parse_loop_statement`. -/
def parse_loop_statement : List Entry := [
  ⟨false, [.bool (some true)], 5444517870735015415413993718908291383296, TOP,
    .node [⟨.LoopStatement, 1461501637330902918203684832716283019655932542976, 12260338471346267578013841431122049750608781259164352512, 374144419156711147060143317175368741262294882713600, TOP⟩],
    TOP, TOP⟩,
  ⟨false, [.bool (some false)], 5444517870735015415413993718908291383296, TOP,
    .node [⟨.LoopStatement, 0, 12260338471346267578013841431122049750608781259164352512, 374144419156711147060143317175368741262294882713600, TOP⟩],
    TOP, TOP⟩]

/-- Summaries of `parse_repeat_statement`. -/
def parse_repeat_statement : List Entry := [
  ⟨false, [.bool (some true)], 47890485652059026823698344598447161988085597568237568, TOP,
    .node [⟨.RepeatStatement, 12554203472234863165002481764619017664920993908584001568768, 12260338471346267578013841431122049750897011635316064256, 12554203844917780684382725906558650007573740381599103451136, TOP⟩],
    TOP, TOP⟩,
  ⟨false, [.bool (some false)], 47890485652059026823698344598447161988085597568237568, TOP,
    .node [⟨.RepeatStatement, 12554203470773361527671578846415332832204710888928069025792, 12260338471346267578013841431122049750897011635316064256, 12554203844917780684382725906558650007573740381599103451136, TOP⟩],
    TOP, TOP⟩]

/-- Summaries of `parse_while_statement`. -/
def parse_while_statement : List Entry := [
  ⟨false, [.bool (some true)], 215679573337205118357336120696157045389097155380324579848828881993728, TOP,
    .node [⟨.WhileStatement, 1461501637330902918203684832716283160393689333760, 12259964326927110866866781287804874383020440468888485888, 1153062242363637760, 215679573337205118357336120696157045389097155380324579848828881993728⟩],
    TOP, TOP⟩,
  ⟨false, [.bool (some false)], 215679573337205118357336120696157045389097155380324579848828881993728, TOP,
    .node [⟨.WhileStatement, 140737756790784, 12259964326927110866866781287804874383020440468888485888, 1153062242363637760, 215679573337205118357336120696157045389097155380324579848828881993728⟩],
    TOP, TOP⟩]

/-- Summaries of `parse_single_token_statement`. -/
def parse_single_token_statement : List Entry := [
  ⟨false, [.bool (some true)], 3064991081731777716716694054300618367237478244367204352, TOP,
    .node [⟨.SingleTokenStatement, 1461501637330902918203684832716283019655932542976, 12259964326927110866866781287804874381867518964281638912, 0, 3064991081731777716716694054300618367237478244367204352⟩],
    3064991081731777716716694054300618367237478244367205376, TOP⟩,
  ⟨false, [.bool (some false)], 3064991081731777716716694054300618367237478244367204352, TOP,
    .node [⟨.SingleTokenStatement, 0, 12259964326927110866866781287804874381867518964281638912, 0, 3064991081731777716716694054300618367237478244367204352⟩],
    3064991081731777716716694054300618367237478244367204352, TOP⟩]

/-- Summaries of `parse_for_statement`. -/
def parse_for_statement : List Entry := [
  ⟨false, [.bool (some true)], 39614081257132168796771975168, TOP,
    .node [⟨.ForStatement, 1461501637330902918204942115568682374735115321344, 12259964326927110866866781287804874381939576558319566848, 1257282852471412673220706304, 39614081257132168796771975168⟩],
    TOP, TOP⟩,
  ⟨false, [.bool (some false)], 39614081257132168796771975168, TOP,
    .node [⟨.ForStatement, 1257282852399355079182778368, 12259964326927110866866781287804874381939576558319566848, 1257282852471412673220706304, 39614081257132168796771975168⟩],
    TOP, TOP⟩]

/-- Summaries of `parse_transaction_statement`. -/
def parse_transaction_statement : List Entry := [
  ⟨false, [.bool (some true)], 68719476736, TOP,
    .node [⟨.TransactionStatement, 392318859923169185070639757154163983722680234934934700032, 12259964326927110866866781287804874381867518964281638912, 0, 68719476736⟩],
    411376139330301510538742295639337626245683966408395034556630016, TOP⟩,
  ⟨false, [.bool (some true)], 49039857307708443467467104868809893875808659109130010624, TOP,
    .node [⟨.TransactionStatement, 392318859923169185070639757154163983722680234934934700032, 12259964326927110866866781287804874381867518964281638912, 0, 49039857307708443467467104868809893875808659109130010624⟩],
    411376188370158818247185763106442495055577842217054074967163904, TOP⟩,
  ⟨false, [.bool (some false)], 68719476736, TOP,
    .node [⟨.TransactionStatement, 392318858461667547739736838950479151006397215279002157056, 12259964326927110866866781287804874381867518964281638912, 0, 68719476736⟩],
    411376139330301510538742295639337626245683966408395034556628992, TOP⟩,
  ⟨false, [.bool (some false)], 49039857307708443467467104868809893875808659109130010624, TOP,
    .node [⟨.TransactionStatement, 392318858461667547739736838950479151006397215279002157056, 12259964326927110866866781287804874381867518964281638912, 0, 49039857307708443467467104868809893875808659109130010624⟩],
    411376188370158818247185763106442495055577842217054074967162880, TOP⟩]

/-- Summaries of `parse_raise_statement`. -/
def parse_raise_statement : List Entry := [
  ⟨false, [.bool (some true)], 374144419156711147060143317175368453031918731001856, TOP,
    .node [⟨.RaiseStatement, 25108406943008224692674060611034350497125704797512070594560, 12259964326927110866866781287804874381867518964281638912, 0, 374144419156711147060143317175368453031918731001856⟩],
    TOP, TOP⟩,
  ⟨false, [.bool (some false)], 374144419156711147060143317175368453031918731001856, TOP,
    .node [⟨.RaiseStatement, 25108406941546723055343157692830665664409421777856138051584, 12259964326927110866866781287804874381867518964281638912, 0, 374144419156711147060143317175368453031918731001856⟩],
    TOP, TOP⟩]

/-- Summaries of `parse_case_statement`. -/
def parse_case_statement : List Entry := [
  ⟨false, [.bool (some true)], 140737488355328, TOP,
    .node [⟨.CaseStatement, 1461501637330902918203684832734729763729642094592, 12259964326927110866866781287804874381903547761300603136, 36028797018964224, 140737488355328⟩],
    TOP, TOP⟩,
  ⟨false, [.bool (some false)], 140737488355328, TOP,
    .node [⟨.CaseStatement, 18446744073709551616, 12259964326927110866866781287804874381903547761300603136, 36028797018964224, 140737488355328⟩],
    TOP, TOP⟩]

/-- Summaries of `parse_call_statement`. -/
def parse_call_statement : List Entry := [
  ⟨false, [.bool (some true)], 17592186044416, TOP,
    .node [⟨.CallStatement, 1461502334229190372285658005707479039917229604864, 12259964326927110866866781287804874381867518964281638912, 696898287454081973172991196020261297061888, 17592186044416⟩],
    TOP, TOP⟩,
  ⟨false, [.bool (some false)], 17592186044416, TOP,
    .node [⟨.CallStatement, 696898287454081973172991196020261297061888, 12259964326927110866866781287804874381867518964281638912, 696898287454081973172991196020261297061888, 17592186044416⟩],
    TOP, TOP⟩]

/-- Summaries of `parse_assert_satement`. -/
def parse_assert_satement : List Entry := [
  ⟨false, [.bool (some true)], 2147483648, TOP,
    .node [⟨.AssertStatement, 1461501637330902918203684832734729768127688606208, 12259964326927110866866781287804874381867518964281638912, 18446744073709551616, 2147483648⟩],
    TOP, TOP⟩,
  ⟨false, [.bool (some false)], 2147483648, TOP,
    .node [⟨.AssertStatement, 18446748471756063232, 12259964326927110866866781287804874381867518964281638912, 18446744073709551616, 2147483648⟩],
    TOP, TOP⟩]

/-- Summaries of `parse_export_data_statement`. -/
def parse_export_data_statement : List Entry := [
  ⟨false, [.bool (some true)], 154742504910672534362390528, TOP,
    .node [⟨.ExportDataStatement, 6427752177037422603805184589194837234585019873379102754865664, 12259964326927110866866781287804874381867518964281638912, 5316911983139663491615228275481117184, 154742504910672534362390528⟩],
    TOP, TOP⟩,
  ⟨false, [.bool (some false)], 154742504910672534362390528, TOP,
    .node [⟨.ExportDataStatement, 6427752177035961102167853686276633549752303590359446822322688, 12259964326927110866866781287804874381867518964281638912, 5316911983139663491615228275481117184, 154742504910672534362390528⟩],
    TOP, TOP⟩]

/-- Summaries of `parse_export_model_statement`. -/
def parse_export_model_statement : List Entry := [
  ⟨false, [.bool (some true)], 154742504910672534362390528, TOP,
    .node [⟨.ExportModelStatement, 100433627767648393858708850601509506496658699193388401426432, 12259964326927110866866781287804874381867518964281638912, 100433627766186892221372630771322682000450800945491347505152, 154742504910672534362390528⟩],
    TOP, TOP⟩,
  ⟨false, [.bool (some false)], 154742504910672534362390528, TOP,
    .node [⟨.ExportModelStatement, 100433627766186892221377947683305821663942416173732468883456, 12259964326927110866866781287804874381867518964281638912, 100433627766186892221372630771322682000450800945491347505152, 154742504910672534362390528⟩],
    TOP, TOP⟩]

/-- Summaries of `parse_load_statement`. -/
def parse_load_statement : List Entry := [
  ⟨false, [.bool (some true)], 1361129467683753853853498429727072845824, TOP,
    .node [⟨.LoadStatement, 28924884796663286461404904047180287281077912043523444706902016, 12259964326927110866866781287804874381867518964281638912, 19826497368771317729731805184, 1361129467683753853853498429727072845824⟩],
    TOP, TOP⟩,
  ⟨false, [.bool (some false)], 1361129467683753853853498429727072845824, TOP,
    .node [⟨.LoadStatement, 28924884796661824959767573144262083596245195760503788774359040, 12259964326927110866866781287804874381867518964281638912, 19826497368771317729731805184, 1361129467683753853853498429727072845824⟩],
    TOP, TOP⟩]

/-- The table. -/
def table : Fn → List Entry
  | .parse_between_operator => parse_between_operator
  | .parse_binary_operator => parse_binary_operator
  | .parse_constraint => parse_constraint
  | .parse_cte => parse_cte
  | .parse_enforced => parse_enforced
  | .parse_expr => parse_expr
  | .parse_exprs => parse_exprs
  | .parse_grouped_exprs => parse_grouped_exprs
  | .parse_grouped_type_declaration_or_constraints => parse_grouped_type_declaration_or_constraints
  | .parse_identifier => parse_identifier
  | .parse_single_or_multi_token_identifier => parse_single_or_multi_token_identifier
  | .parse_in_operator => parse_in_operator
  | .parse_is_distinct_from_operator => parse_is_distinct_from_operator
  | .parse_keyword_with_grouped_exprs => parse_keyword_with_grouped_exprs
  | .parse_keyword_with_statements => parse_keyword_with_statements
  | .parse_n_keywords => parse_n_keywords
  | .parse_set_operator => parse_set_operator
  | .parse_statement => parse_statement
  | .parse_table => parse_table
  | .parse_type => parse_type
  | .parse_window_expr => parse_window_expr
  | .parse_with_connection_clause => parse_with_connection_clause
  | .parse_with_clause => parse_with_clause
  | .parse_window_clause => parse_window_clause
  | .parse_xxxby_exprs => parse_xxxby_exprs
  | .parse_groupby_exprs => parse_groupby_exprs
  | .parse_table_sample_ratio => parse_table_sample_ratio
  | .parse_pivot_config_clause => parse_pivot_config_clause
  | .parse_unpivot_config_clause => parse_unpivot_config_clause
  | .parse_match_recognize_clause => parse_match_recognize_clause
  | .parse_match_recognize_config => parse_match_recognize_config
  | .parse_by_name_clause => parse_by_name_clause
  | .parse_pattern_clause => parse_pattern_clause
  | .parse_grouped_pattern => parse_grouped_pattern
  | .parse_pattern => parse_pattern
  | .parse_quantifier => parse_quantifier
  | .parse_corresponding_clause => parse_corresponding_clause
  | .push_trailing_alias => push_trailing_alias
  | .parse_select_statement => parse_select_statement
  | .parse_from_statement => parse_from_statement
  | .parse_pipe_statement => parse_pipe_statement
  | .parse_select_pipe_operator => parse_select_pipe_operator
  | .parse_limit_pipe_operator => parse_limit_pipe_operator
  | .parse_aggregate_pipe_operator => parse_aggregate_pipe_operator
  | .parse_union_pipe_operator => parse_union_pipe_operator
  | .parse_join_pipe_operator => parse_join_pipe_operator
  | .parse_tablesample_pipe_operator => parse_tablesample_pipe_operator
  | .parse_pivot_pipe_operator => parse_pivot_pipe_operator
  | .parse_unpivot_pipe_operator => parse_unpivot_pipe_operator
  | .parse_with_pipe_operator => parse_with_pipe_operator
  | .parse_match_recognize_pipe_operator => parse_match_recognize_pipe_operator
  | .parse_base_pipe_operator => parse_base_pipe_operator
  | .parse_insert_statement => parse_insert_statement
  | .parse_delete_statement => parse_delete_statement
  | .parse_truncate_statement => parse_truncate_statement
  | .parse_update_statement => parse_update_statement
  | .parse_merge_statement => parse_merge_statement
  | .parse_create_schema_statement => parse_create_schema_statement
  | .parse_create_search_index_statement => parse_create_search_index_statement
  | .parse_create_table_statement => parse_create_table_statement
  | .parse_create_view_statement => parse_create_view_statement
  | .parse_create_function_statement => parse_create_function_statement
  | .parse_create_procedure_statement => parse_create_procedure_statement
  | .parse_create_row_access_policy_statement => parse_create_row_access_policy_statement
  | .parse_create_model_statement => parse_create_model_statement
  | .parse_alter_schema_statement => parse_alter_schema_statement
  | .parse_alter_table_statement => parse_alter_table_statement
  | .parse_alter_column_statement => parse_alter_column_statement
  | .parse_alter_vector_index_statement => parse_alter_vector_index_statement
  | .parse_alter_view_statement => parse_alter_view_statement
  | .parse_alter_organization_statement => parse_alter_organization_statement
  | .parse_alter_project_statement => parse_alter_project_statement
  | .parse_alter_bicapacity_statement => parse_alter_bicapacity_statement
  | .parse_alter_reservation_statement => parse_alter_reservation_statement
  | .parse_alter_model_statement => parse_alter_model_statement
  | .parse_drop_row_access_policy_statement => parse_drop_row_access_policy_statement
  | .parse_drop_statement_general => parse_drop_statement_general
  | .parse_undrop_statement => parse_undrop_statement
  | .parse_grant_statement => parse_grant_statement
  | .parse_revoke_statement => parse_revoke_statement
  | .parse_create_reservation_statement => parse_create_reservation_statement
  | .parse_declare_statement => parse_declare_statement
  | .parse_set_statement => parse_set_statement
  | .parse_execute_statement => parse_execute_statement
  | .parse_begin_statement => parse_begin_statement
  | .parse_if_statement => parse_if_statement
  | .parse_labeled_statement => parse_labeled_statement
  | .parse_break_continue_statement => parse_break_continue_statement
  | .parse_loop_statement => parse_loop_statement
  | .parse_repeat_statement => parse_repeat_statement
  | .parse_while_statement => parse_while_statement
  | .parse_single_token_statement => parse_single_token_statement
  | .parse_for_statement => parse_for_statement
  | .parse_transaction_statement => parse_transaction_statement
  | .parse_raise_statement => parse_raise_statement
  | .parse_case_statement => parse_case_statement
  | .parse_call_statement => parse_call_statement
  | .parse_assert_satement => parse_assert_satement
  | .parse_export_data_statement => parse_export_data_statement
  | .parse_export_model_statement => parse_export_model_statement
  | .parse_load_statement => parse_load_statement

end Verif.AI.Table
