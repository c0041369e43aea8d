import Verif.Analysis.Order
/-! Generated by tools/GenOrder.lean.txt: summaries of the parse functions, checked in Verif.Analysis.OrderCheck. -/
namespace Verif.OI.Table

/-- Summaries of `parse_between_operator`. -/
def parse_between_operator : List Entry := [
  ⟨false, [], some (false, .any),
    .node [(.BetweenOperator, 20282409603651670423947251286016, 57896044618658097711797752468807896816001631262689682347177811056013590134848)]⟩]

/-- Summaries of `parse_binary_operator`. -/
def parse_binary_operator : List Entry := [
  ⟨false, [], some (false, .any),
    .node [(.BinaryOperator, 20282409603651670423947251286016, 57896044618658097711797752468693719788178387365282648718828692014089426173952)]⟩]

/-- Summaries of `parse_constraint`. -/
def parse_constraint : List Entry := [
  ⟨false, [], none,
    .node [(.Constraint, 0, 57896044618658097711797752468670970240482653236917739772361137816355779641344)]⟩]

/-- Summaries of `parse_cte`. -/
def parse_cte : List Entry := [
  ⟨false, [], none,
    .node [(.WithQuery, 0, 57896044618658097711797752655743090615857432644179745481794886038880346178048)]⟩]

/-- Summaries of `parse_enforced`. -/
def parse_enforced : List Entry := [
  ⟨false, [], none,
    .node [(.KeywordSequence, 0, 57896044618658097711797752468670881037501900652482955172731687766891480219648),
    (.Keyword, 0, 57896044618658097711797752468670881037501859114108086894110659522920846458880)]⟩]

/-- Summaries of `parse_expr`. -/
def parse_expr : List Entry := [
  ⟨false, [none, some false, some false, some false, some true], none,
    .node [(.Asterisk, 0, 57896044618658097711797752468672308285216165028920650063019407568805212192768),
    (.GroupedStatement, 0, 57896044618658100925673841174454392518511204117533053548033305500741380603904),
    (.EmptyStruct, 0, 57896044618658097711797752469401631856188910528141434193403487897478368329728),
    (.StructLiteral, 0, 57896044618658097713367027903248302047147857883943350797465970246741796061184),
    (.RangeLiteral, 0, 57896044618658097713367027902517551228482406424841508381070935248766410686464),
    (.ArrayLiteral, 0, 57896044618658097713367027903248302047147857883943350797465970246741796061184),
    (.Identifier, 0, 57896044618658097711797752468670881037523459069039591777045346387650402058240),
    (.NumericLiteral, 0, 57896044618658097711797752468670881037523459069039591777045346387650402058240),
    (.StringLiteral, 0, 57896044618658097711797752468670881037523459069039591777045346387650402058240),
    (.BooleanLiteral, 0, 57896044618658097711797752468670881037523459069039591777045346387650402058240),
    (.Parameter, 0, 57896044618658097711797752468670881037523459069039591777045346387650402058240),
    (.Template, 0, 57896044618658097711797752468670881037523459069039591777045346387650402058240),
    (.NullLiteral, 0, 57896044618658097711797752468670881037523459069039591777045346387650402058240),
    (.Unknown, 0, 57896044618658097711797752468670881037523459069039591777045346387650402058240),
    (.UnaryOperator, 0, 57896044618658097711797752468693717000606754427136524352556538309832526004224),
    (.IntervalLiteral, 0, 57896044618658097711806947441916076370673609151202493632165505566594652176384),
    (.CaseExpr, 0, 57896044618658097711797752468670881037523459069039591777063811146122621092096),
    (.CallingFunction, 0, 57896044618658097711797752469401631856571728272057442851235293317226555244672),
    (.AccessOperator, 0, 57896044618658097711797752469424467819272205906520776372566350243607743561728),
    (.FunctionChain, 0, 57896044618658097711797752468693717000606754447418933956208208733779777290240),
    (.DotOperator, 0, 57896044618658097711797752468693717000606754447418933956208208733779777290240),
    (.GroupedExpr, 0, 57896044618658097711797752469401631856188910528141434193421934641552077881344),
    (.PipeStatement, 0, 57896044618658100925673840988135769721861842047947823833330479319021380435968),
    (.SetOperator, 0, 57896044618658100925673840986674268084573479699035753257981428421957087404032),
    (.FromStatement, 0, 57896044618658100925673840988112933758778546669568481654186063716965714755584),
    (.SelectStatement, 0, 57896044618658102130877374180894140171758323292395456864070498364782653998080),
    (.BinaryOperator, 0, 57896044618658097711797752468693719788199987340496563205415049302766233059328),
    (.IsDistinctFromOperator, 0, 57896044618658097711797752468693717000606837524168670551229197119862578610176),
    (.BetweenOperator, 0, 57896044618658097711797752468807896816023314314653333391006224832631664541760),
    (.InOperator, 0, 57896044618658097711797752468693717000606837524168670513450265221721044811776)]⟩,
  ⟨false, [none, some true, some false, some false, some true], none,
    .node [(.Asterisk, 0, 57896044618658097711797752468672308285216165028920650063019407568805212193296),
    (.GroupedStatement, 0, 57896044618658100925673841174454392518511204117533053548033305500741380604432),
    (.EmptyStruct, 0, 57896044618658097711797752469401631856188910528141434193403487897478368330256),
    (.StructLiteral, 0, 57896044618658097713367027903248302047147857883943350797465970246741796061712),
    (.RangeLiteral, 0, 57896044618658097713367027902517551228482406424841508381070935248766410686992),
    (.ArrayLiteral, 0, 57896044618658097713367027903248302047147857883943350797465970246741796061712),
    (.Identifier, 0, 57896044618658097711797752468670881037523459069039591777045346387650402058768),
    (.NumericLiteral, 0, 57896044618658097711797752468670881037523459069039591777045346387650402058768),
    (.StringLiteral, 0, 57896044618658097711797752468670881037523459069039591777045346387650402058768),
    (.BooleanLiteral, 0, 57896044618658097711797752468670881037523459069039591777045346387650402058768),
    (.Parameter, 0, 57896044618658097711797752468670881037523459069039591777045346387650402058768),
    (.Template, 0, 57896044618658097711797752468670881037523459069039591777045346387650402058768),
    (.NullLiteral, 0, 57896044618658097711797752468670881037523459069039591777045346387650402058768),
    (.Unknown, 0, 57896044618658097711797752468670881037523459069039591777045346387650402058768),
    (.UnaryOperator, 0, 57896044618658097711797752468693717000606754427136524352556538309832526004752),
    (.IntervalLiteral, 0, 57896044618658097711806947441916076370673609151202493632165505566594652176912),
    (.CaseExpr, 0, 57896044618658097711797752468670881037523459069039591777063811146122621092624),
    (.CallingFunction, 0, 57896044618658097711797752469401631856571728272057442851235293317226555245200),
    (.AccessOperator, 0, 57896044618658097711797752469424467819272205906520776372566350243607743562256),
    (.FunctionChain, 0, 57896044618658097711797752468693717000606754447418933956208208733779777290768),
    (.DotOperator, 0, 57896044618658097711797752468693717000606754447418933956208208733779777290768),
    (.GroupedExpr, 0, 57896044618658097711797752469401631856188910528141434193421934641552077881872),
    (.PipeStatement, 0, 57896044618658100925673840988135769721861842047947823833330479319021380436496),
    (.SetOperator, 0, 57896044618658100925673840986674268084573479699035753257981428421957087404560),
    (.FromStatement, 0, 57896044618658100925673840988112933758778546669568481654186063716965714756112),
    (.SelectStatement, 0, 57896044618658102130877374180894140171758323292395456864070498364782653998608),
    (.BinaryOperator, 0, 57896044618658097711797752468693719788199987340496563205415049302766233059856),
    (.IsDistinctFromOperator, 0, 57896044618658097711797752468693717000606837524168670551229197119862578610704),
    (.BetweenOperator, 0, 57896044618658097711797752468807896816023314314653333391006224832631664542288),
    (.InOperator, 0, 57896044618658097711797752468693717000606837524168670513450265221721044812304)]⟩,
  ⟨false, [none, some false, some true, some false, some true], none,
    .node [(.CallingFunction, 0, 57896044618658097711797752469401631856571728272057442851235293317226555244672),
    (.AccessOperator, 0, 57896044618658097711797752469424467819272205906520776372566350243607743561728),
    (.FunctionChain, 0, 57896044618658097711797752468693717000606754447418933956208208733779777290240),
    (.DotOperator, 0, 57896044618658097711797752468693717000606754447418933956208208733779777290240),
    (.BinaryOperator, 0, 57896044618658097711797752468693719788199987340496563205415049302766233059328),
    (.IsDistinctFromOperator, 0, 57896044618658097711797752468693717000606837524168670551229197119862578610176),
    (.BetweenOperator, 0, 57896044618658097711797752468807896816023314314653333391006224832631664541760),
    (.InOperator, 0, 57896044618658097711797752468693717000606837524168670513450265221721044811776),
    (.Identifier, 0, 57896044618658097711797752468670881037523459069039591777045346387650402058240),
    (.MultiTokenIdentifier, 0, 57896044618658097711822272397324735259257192621473996723983246213605339693056)]⟩,
  ⟨false, [none, some false, some false, none, some true], none,
    .node [(.Asterisk, 0, 57896044618658097711797752468672308285216165028920650063019407568805212192768),
    (.GroupedStatement, 0, 57896044618658100925673841174454392518511204117533053548033305500741380603904),
    (.EmptyStruct, 0, 57896044618658097711797752469401631856188910528141434193403487897478368329728),
    (.StructLiteral, 0, 57896044618658097713367027903248302047147857883943350797465970246741796061184),
    (.RangeLiteral, 0, 57896044618658097713367027902517551228482406424841508381070935248766410686464),
    (.ArrayLiteral, 0, 57896044618658097713367027903248302047147857883943350797465970246741796061184),
    (.Identifier, 0, 57896044618658097711797752468670881037523459069039591777045346387650402058240),
    (.NumericLiteral, 0, 57896044618658097711797752468670881037523459069039591777045346387650402058240),
    (.StringLiteral, 0, 57896044618658097711797752468670881037523459069039591777045346387650402058240),
    (.BooleanLiteral, 0, 57896044618658097711797752468670881037523459069039591777045346387650402058240),
    (.Parameter, 0, 57896044618658097711797752468670881037523459069039591777045346387650402058240),
    (.Template, 0, 57896044618658097711797752468670881037523459069039591777045346387650402058240),
    (.NullLiteral, 0, 57896044618658097711797752468670881037523459069039591777045346387650402058240),
    (.Unknown, 0, 57896044618658097711797752468670881037523459069039591777045346387650402058240),
    (.UnaryOperator, 0, 57896044618658097711797752468693717000606754427136524352556538309832526004224),
    (.IntervalLiteral, 0, 57896044618658097711806947441916076370673609151202493632165505566594652176384),
    (.PipeStatement, 0, 57896044618658100925673840988135769721861842047947823833330479319021380435968),
    (.SetOperator, 0, 57896044618658100925673840986674268084573479699035753257981428421957087404032),
    (.FromStatement, 0, 57896044618658100925673840988112933758778546669568481654186063716965714755584),
    (.SelectStatement, 0, 57896044618658102130877374180894140171758323292395456864070498364782653998080),
    (.CaseExpr, 0, 57896044618658097711797752468670881037523459069039591777063811146122621092096),
    (.CallingFunction, 0, 57896044618658097711797752469401631856571728272057442851235293317226555244672),
    (.AccessOperator, 0, 57896044618658097711797752469424467819272205906520776372566350243607743561728),
    (.FunctionChain, 0, 57896044618658097711797752468693717000606754447418933956208208733779777290240),
    (.DotOperator, 0, 57896044618658097711797752468693717000606754447418933956208208733779777290240),
    (.BinaryOperator, 0, 57896044618658097711797752468693719788199987340496563205415049302766233059328),
    (.IsDistinctFromOperator, 0, 57896044618658097711797752468693717000606837524168670551229197119862578610176),
    (.BetweenOperator, 0, 57896044618658097711797752468807896816023314314653333391006224832631664541760),
    (.InOperator, 0, 57896044618658097711797752468693717000606837524168670513450265221721044811776),
    (.GroupedExpr, 0, 57896044618658097711797752469401631856188910528141434193421934641552077881344)]⟩,
  ⟨false, [none, some false, some false, some false, some false], none,
    .node [(.Asterisk, 0, 57896044618658097711797752468672308285194565073989145180084720704075656593408),
    (.GroupedStatement, 0, 57896044618658100925673841174454392518489604162601548665098618636011825004544),
    (.EmptyStruct, 0, 57896044618658097711797752469401631856167310573209929310468801032748812730368),
    (.StructLiteral, 0, 57896044618658097713367027903248302047126257929011845914531283382012240461824),
    (.RangeLiteral, 0, 57896044618658097713367027902517551228460806469910003498136248384036855087104),
    (.ArrayLiteral, 0, 57896044618658097713367027903248302047126257929011845914531283382012240461824),
    (.Identifier, 0, 57896044618658097711797752468670881037501859114108086894110659522920846458880),
    (.NumericLiteral, 0, 57896044618658097711797752468670881037501859114108086894110659522920846458880),
    (.StringLiteral, 0, 57896044618658097711797752468670881037501859114108086894110659522920846458880),
    (.BooleanLiteral, 0, 57896044618658097711797752468670881037501859114108086894110659522920846458880),
    (.Parameter, 0, 57896044618658097711797752468670881037501859114108086894110659522920846458880),
    (.Template, 0, 57896044618658097711797752468670881037501859114108086894110659522920846458880),
    (.NullLiteral, 0, 57896044618658097711797752468670881037501859114108086894110659522920846458880),
    (.Unknown, 0, 57896044618658097711797752468670881037501859114108086894110659522920846458880),
    (.UnaryOperator, 0, 57896044618658097711797752468693717000585154472205019469621851445102970404864),
    (.IntervalLiteral, 0, 57896044618658097711806947441916076370652009196270988749230818701865096577024),
    (.PipeStatement, 0, 57896044618658100925673840988135769721840242093016318950395792454291824836608),
    (.SetOperator, 0, 57896044618658100925673840986674268084551879744104248375046741557227531804672),
    (.FromStatement, 0, 57896044618658100925673840988112933758756946714636976771251376852236159156224),
    (.SelectStatement, 0, 57896044618658102130877374180894140171736723337463951981135811500053098398720),
    (.CaseExpr, 0, 57896044618658097711797752468670881037501859114108086894129124281393065492736),
    (.CallingFunction, 0, 57896044618658097711797752469401631856550128317125937968300606452496999645312),
    (.AccessOperator, 0, 57896044618658097711797752469424467819250605951589271489631663378878187962368),
    (.FunctionChain, 0, 57896044618658097711797752468693717000585154492487429073273521869050221690880),
    (.DotOperator, 0, 57896044618658097711797752468693717000585154492487429073273521869050221690880),
    (.BinaryOperator, 0, 57896044618658097711797752468693719788178387385565058322480362438036677459968),
    (.IsDistinctFromOperator, 0, 57896044618658097711797752468693717000585237569237165668294510255133023010816),
    (.BetweenOperator, 0, 57896044618658097711797752468807896816001714359721828508071537967902108942400),
    (.InOperator, 0, 57896044618658097711797752468693717000585237569237165630515578356991489212416),
    (.GroupedExpr, 0, 57896044618658097711797752469401631856167310573209929310487247776822522281984)]⟩,
  ⟨false, [none, some false, some true, none, some true], none,
    .node [(.DotOperator, 0, 57896044618658097711797752468693717000606754447418933956208208733779777290240),
    (.CallingFunction, 0, 57896044618658097711797752469401631856571728272057442851235293317226555244672),
    (.AccessOperator, 0, 57896044618658097711797752469424467819272205906520776372566350243607743561728),
    (.FunctionChain, 0, 57896044618658097711797752468693717000606754447418933956208208733779777290240),
    (.BinaryOperator, 0, 57896044618658097711797752468693719788199987340496563205415049302766233059328),
    (.IsDistinctFromOperator, 0, 57896044618658097711797752468693717000606837524168670551229197119862578610176),
    (.BetweenOperator, 0, 57896044618658097711797752468807896816023314314653333391006224832631664541760),
    (.InOperator, 0, 57896044618658097711797752468693717000606837524168670513450265221721044811776),
    (.Identifier, 0, 57896044618658097711797752468670881037523459069039591777045346387650402058240),
    (.MultiTokenIdentifier, 0, 57896044618658097711822272397324735259257192621473996723983246213605339693056)]⟩,
  ⟨false, [none, none, some false, some false], none,
    .node [(.Asterisk, 0, 57896044618658097711797752468672308285216165028920650063019407568805212193296),
    (.GroupedStatement, 0, 57896044618658100925673841174454392518511204117533053548033305500741380604432),
    (.EmptyStruct, 0, 57896044618658097711797752469401631856188910528141434193403487897478368330256),
    (.StructLiteral, 0, 57896044618658097713367027903248302047147857883943350797465970246741796061712),
    (.RangeLiteral, 0, 57896044618658097713367027902517551228482406424841508381070935248766410686992),
    (.ArrayLiteral, 0, 57896044618658097713367027903248302047147857883943350797465970246741796061712),
    (.Identifier, 0, 57896044618658097711797752468670881037523459069039591777045346387650402058768),
    (.NumericLiteral, 0, 57896044618658097711797752468670881037523459069039591777045346387650402058768),
    (.StringLiteral, 0, 57896044618658097711797752468670881037523459069039591777045346387650402058768),
    (.BooleanLiteral, 0, 57896044618658097711797752468670881037523459069039591777045346387650402058768),
    (.Parameter, 0, 57896044618658097711797752468670881037523459069039591777045346387650402058768),
    (.Template, 0, 57896044618658097711797752468670881037523459069039591777045346387650402058768),
    (.NullLiteral, 0, 57896044618658097711797752468670881037523459069039591777045346387650402058768),
    (.Unknown, 0, 57896044618658097711797752468670881037523459069039591777045346387650402058768),
    (.UnaryOperator, 0, 57896044618658097711797752468693717000606754427136524352556538309832526004752),
    (.IntervalLiteral, 0, 57896044618658097711806947441916076370673609151202493632165505566594652176912),
    (.PipeStatement, 0, 57896044618658100925673840988135769721861842047947823833330479319021380436496),
    (.SetOperator, 0, 57896044618658100925673840986674268084573479699035753257981428421957087404560),
    (.FromStatement, 0, 57896044618658100925673840988112933758778546669568481654186063716965714756112),
    (.SelectStatement, 0, 57896044618658102130877374180894140171758323292395456864070498364782653998608),
    (.CaseExpr, 0, 57896044618658097711797752468670881037523459069039591777063811146122621092624),
    (.CallingFunction, 0, 57896044618658097711797752469401631856571728272057442851235293317226555245200),
    (.AccessOperator, 0, 57896044618658097711797752469424467819272205906520776372566350243607743562256),
    (.FunctionChain, 0, 57896044618658097711797752468693717000606754447418933956208208733779777290768),
    (.DotOperator, 0, 57896044618658097711797752468693717000606754447418933956208208733779777290768),
    (.BinaryOperator, 0, 57896044618658097711797752468693719788199987340496563205415049302766233059856),
    (.IsDistinctFromOperator, 0, 57896044618658097711797752468693717000606837524168670551229197119862578610704),
    (.BetweenOperator, 0, 57896044618658097711797752468807896816023314314653333391006224832631664542288),
    (.InOperator, 0, 57896044618658097711797752468693717000606837524168670513450265221721044812304),
    (.GroupedExpr, 0, 57896044618658097711797752469401631856188910528141434193421934641552077881872)]⟩]

/-- Summaries of `parse_exprs`. -/
def parse_exprs : List Entry := [
  ⟨false, [], none,
    .vec (some [(.Asterisk, 57896044618658097711797752468672308285216165028920650063019407568805346411024), (.GroupedStatement, 57896044618658100925673841174454392518511204117533053548033305500741514822160), (.EmptyStruct, 57896044618658097711797752469401631856188910528141434193403487897478502547984), (.StructLiteral, 57896044618658097713367027903248302047147857883943350797465970246741930279440), (.RangeLiteral, 57896044618658097713367027902517551228482406424841508381070935248766544904720), (.ArrayLiteral, 57896044618658097713367027903248302047147857883943350797465970246741930279440), (.Identifier, 57896044618658097711797752468670881037523459069039591777045346387650536276496), (.NumericLiteral, 57896044618658097711797752468670881037523459069039591777045346387650536276496), (.StringLiteral, 57896044618658097711797752468670881037523459069039591777045346387650536276496), (.BooleanLiteral, 57896044618658097711797752468670881037523459069039591777045346387650536276496), (.Parameter, 57896044618658097711797752468670881037523459069039591777045346387650536276496), (.Template, 57896044618658097711797752468670881037523459069039591777045346387650536276496), (.NullLiteral, 57896044618658097711797752468670881037523459069039591777045346387650536276496), (.Unknown, 57896044618658097711797752468670881037523459069039591777045346387650536276496), (.UnaryOperator, 57896044618658097711797752468693717000606754427136524352556538309832660222480), (.IntervalLiteral, 57896044618658097711806947441916076370673609151202493632165505566594786394640), (.PipeStatement, 57896044618658100925673840988135769721861842047947823833330479319021514654224), (.SetOperator, 57896044618658100925673840986674268084573479699035753257981428421957221622288), (.FromStatement, 57896044618658100925673840988112933758778546669568481654186063716965848973840), (.SelectStatement, 57896044618658102130877374180894140171758323292395456864070498364782788216336), (.CaseExpr, 57896044618658097711797752468670881037523459069039591777063811146122755310352), (.CallingFunction, 57896044618658097711797752469401631856571728272057442851235293317226689462928), (.AccessOperator, 57896044618658097711797752469424467819272205906520776372566350243607877779984), (.FunctionChain, 57896044618658097711797752468693717000606754447418933956208208733779911508496), (.DotOperator, 57896044618658097711797752468693717000606754447418933956208208733779911508496), (.BinaryOperator, 57896044618658097711797752468693719788199987340496563205415049302766367277584), (.IsDistinctFromOperator, 57896044618658097711797752468693717000606837524168670551229197119862712828432), (.BetweenOperator, 57896044618658097711797752468807896816023314314653333391006224832631798760016), (.InOperator, 57896044618658097711797752468693717000606837524168670513450265221721179030032), (.GroupedExpr, 57896044618658097711797752469401631856188910528141434193421934641552212099600)])⟩]

/-- Summaries of `parse_grouped_exprs`. -/
def parse_grouped_exprs : List Entry := [
  ⟨false, [], none,
    .node [(.GroupedExprs, 0, 57896044618658097711797752469401631856167310573209929310505694520896231833600)]⟩]

/-- Summaries of `parse_grouped_type_declaration_or_constraints`. -/
def parse_grouped_type_declaration_or_constraints : List Entry := [
  ⟨false, [], none,
    .node [(.GroupedTypeDeclarationOrConstraints, 0, 57896044618658097711797752469401631856167310573209929310468801033023690637312)]⟩]

/-- Summaries of `parse_identifier`. -/
def parse_identifier : List Entry := [
  ⟨false, [], none,
    .node [(.DotOperator, 0, 57896044618658097711797752468693717000585154492487429073273521869050221690880),
    (.Identifier, 0, 57896044618658097711797752468670881037501859114108086894110659522920846458880),
    (.MultiTokenIdentifier, 0, 57896044618658097711822272397324735259235592666542491841048559348875784093696)]⟩]

/-- Summaries of `parse_single_or_multi_token_identifier`. -/
def parse_single_or_multi_token_identifier : List Entry := [
  ⟨false, [], none,
    .node [(.Identifier, 0, 57896044618658097711797752468670881037501859114108086894110659522920846458880),
    (.MultiTokenIdentifier, 0, 57896044618658097711822272397324735259235592666542491841048559348875784093696)]⟩]

/-- Summaries of `parse_in_operator`. -/
def parse_in_operator : List Entry := [
  ⟨false, [], some (false, .any),
    .node [(.InOperator, 20282409603651670423947251286016, 57896044618658097711797752468693717000585154472205019469621851445102970404864)]⟩]

/-- Summaries of `parse_is_distinct_from_operator`. -/
def parse_is_distinct_from_operator : List Entry := [
  ⟨false, [], some (false, .any),
    .node [(.IsDistinctFromOperator, 20282409603651670423947251286016, 57896044618658097711797752468693717000585237548954756064642839831185771724800)]⟩]

/-- Summaries of `parse_keyword_with_grouped_exprs`. -/
def parse_keyword_with_grouped_exprs : List Entry := [
  ⟨false, [], none,
    .node [(.KeywordWithGroupedXXX, 0, 57896044618658097711797752468670881037501859114108087498573569330235433811968)]⟩]

/-- Summaries of `parse_keyword_with_statements`. -/
def parse_keyword_with_statements : List Entry := [
  ⟨false, [], none,
    .node [(.KeywordWithStatements, 0, 57896044618658097711797752842815300194213006174251404069479112554839577460736)]⟩]

/-- Summaries of `parse_n_keywords`. -/
def parse_n_keywords : List Entry := [
  ⟨false, [], none,
    .vec (some [(.Keyword, 57896044618658097711797752468670881037501859114108086894110659522920846458880)])⟩]

/-- Summaries of `parse_set_operator`. -/
def parse_set_operator : List Entry := [
  ⟨false, [], some (true, .any),
    .node [(.SetOperator, 0, 57896044618658097711797752468693717000585159684784287608101150469923885031424)]⟩]

/-- Summaries of `parse_statement`. -/
def parse_statement : List Entry := [
  ⟨false, [some true], none,
    .node [(.CreateSchemaStatement, 0, 57896044618658104240032597129588085507526546195278172917861666361292804325376),
    (.CreateFunctionStatement, 0, 57896044618658097812280815190145209214163342092505879723466682182477564346888),
    (.CreateTableStatement, 0, 57896044618658129951041688432393749957975952883526166200710822784694458515968),
    (.CreateViewStatement, 0, 57896044618658097812280420093626983350577847045101180303640575713337997263360),
    (.CreateProcedureStatement, 0, 57896044618658104240032597316660295085892753551851412637448491942942894719488),
    (.CreateRowAccessPolicyStatement, 0, 57896044618658097837391892026255438172744697357491653994529129068503725244416),
    (.CreateReservationStatement, 0, 57896044618658097812280420093626983339678176830865292574013786592973382746624),
    (.CreateIndexStatement, 0, 57896044618658097812280468732401473723028293442691090700558920103521257783296),
    (.CreateModelStatement, 0, 57896044618658097813261217239781341765542481445737315839126415604394739367936),
    (.AlterSchemaStatement, 0, 57896044618658097812280420096549986614339982667035055123156015238346285514753),
    (.AlterTableStatement, 0, 57896044618658097812283485087632788827826228831000149456000340119417916489766),
    (.AlterColumnStatement, 0, 57896044618658097813849695530396656805298930022836971727181607195206001623040),
    (.AlterViewStatement, 0, 57896044618658097812280420096549986614339983316072162440009468522083838328864),
    (.AlterVectorIndexStatement, 0, 57896044618658097812280420093626983339676847602631900541850545109399651745792),
    (.AlterOrganizationStatement, 0, 57896044618658097812280420096549986614339982667034958409090445785437820682240),
    (.AlterProjectStatement, 0, 57896044618658097812280420096549986614339982667034977751903559619504615981056),
    (.AlterBICapacityStatement, 0, 57896044618658097812280420096549986614339982667034977751903559619504615981056),
    (.AlterReservationStatement, 0, 57896044618658097812280420096549986614339982667034977751903559619504615981056),
    (.AlterModelStatement, 0, 57896044618658097812280420096549986614339982667035055123156014955771797176320),
    (.TransactionStatement, 0, 57896044618658097712239111185901758666039965986272265573534974621739284168704),
    (.GroupedStatement, 0, 57896044618658100925722881033223602599287974195815248193516536519551260557312),
    (.SelectStatement, 0, 57896044618658102130926414039663350252535093370677651509553729383592533951488),
    (.FromStatement, 0, 57896044618658100925722880845420642202224413829646991466953011716119662166016),
    (.InsertStatement, 0, 57896044618658097711846983889382699354407523940729890772119378875448201052160),
    (.DeleteStatement, 0, 57896044618658098113581327337430486033304164081784736314439251757914436665344),
    (.TruncateStatement, 0, 57896044618658097711846828245304330162570346921080235257900068470658458189824),
    (.UpdateStatement, 0, 57896044618658098113581327340353489307965969918192105979871817797226301751296),
    (.MergeStatement, 0, 57896044618658097937822478746603424645903389459985668582295837341422974926848),
    (.DropRowAccessPolicyStatement, 0, 57896044618658097812280420093626983339674189146640330710104737495279091056640),
    (.DropStatement, 0, 57896044618658097812280432066248396354430895720263587638822475059285362507776),
    (.UndropStatement, 0, 57896044618658097812280420093626983339672859918644623165484289024485991907328),
    (.GrantStatement, 0, 57896044618658097711849857318707365096070049853909468475610266893561481920512),
    (.RevokeStatement, 0, 57896044618658097711846792327625633318353333159855167895021961278274276425728),
    (.DeclareStatement, 0, 57896044618658097762063606210533537228986544532983156436973648630855904526336),
    (.SetStatement, 0, 57896044618658097711846792327440091118300229147321786422547024150533991563264),
    (.ExecuteStatement, 0, 57896044618658097736955199315754866568232280222690792744507264587842096988160),
    (.IfStatement, 0, 57896044618658097711847558575210524062729408320835361577120544402008600215552),
    (.BeginStatement, 0, 57896044618658097711847558949354943219440555380978678752498081194375469072384),
    (.CaseStatement, 0, 57896044618658097711846792327440091118300229147321786422547060179331010527488),
    (.LoadStatement, 0, 57896044618658126636731588989265050885873373409405382667724337910249056370688),
    (.LoopStatement, 0, 57896044618658097711846792701584510275011376207465103597897318668755164725248),
    (.RepeatStatement, 0, 57896044618658097724400996172357871802682955053880436430102317788059385462784),
    (.WhileStatement, 0, 57896044618658097711846792327440091118300229147321786422529730468702645649408),
    (.BreakContinueStatement, 0, 57896044618658097711846792327440091118300229148589437022756806807956985217024),
    (.ForStatement, 0, 57896044618658097711846792327440091118300229147323043705381048819133502717952),
    (.RaiseStatement, 0, 57896044618658097736955199268986814173643386840152452086937999184316420063232),
    (.SingleTokenStatement, 0, 57896044618658097711846792327440091118300229147321786422528577406460282011648),
    (.CallStatement, 0, 57896044618658097711846792327440091815198516601403759595519773426721579073536),
    (.AssertStatement, 0, 57896044618658097711846792327440091118300229147321786422547024154932038074880),
    (.ExportDataStatement, 0, 57896044618658104139598969363401193286153915423955336174832167765907104334336),
    (.ExportModelStatement, 0, 57896044618658097812280420093626983339678176830627608086470993580192750895104),
    (.PipeStatement, 0, 57896044618658100925722880845443478165307709208026333646097427318175327846400),
    (.SetOperator, 0, 57896044618658100925722880845443478165350249777317947903464659440766967357440)]⟩,
  ⟨false, [some false], none,
    .node [(.AlterColumnStatement, 0, 57896044618658097813849695528935155167968027104633286894465324175550069080064),
    (.FromStatement, 0, 57896044618658100925722880845420642202224413829646991466953011716119662166016),
    (.BeginStatement, 0, 57896044618658097711847558947893441582109652462774993919781798174719536529408),
    (.CreateSchemaStatement, 0, 57896044618658104240032597128126583870195643277074488085145383341636871782400),
    (.CreateFunctionStatement, 0, 57896044618658097812280815188683707576832439174302194890750399162821631803912),
    (.CreateTableStatement, 0, 57896044618658129951041688430932248320645049965322481367994539765038525972992),
    (.CreateViewStatement, 0, 57896044618658097812280420092165481713246944126897495470924292693682064720384),
    (.CreateProcedureStatement, 0, 57896044618658104240032597315198793448561850633647727804732208923286962176512),
    (.CreateRowAccessPolicyStatement, 0, 57896044618658097837391892024793936535413794439287969161812846048847792701440),
    (.CreateReservationStatement, 0, 57896044618658097812280420092165481702347273912661607741297503573317450203648),
    (.CreateIndexStatement, 0, 57896044618658097812280468730939972085697390524487405867842637083865325240320),
    (.CreateModelStatement, 0, 57896044618658097813261217238319840128211578527533631006410132584738806824960),
    (.AlterSchemaStatement, 0, 57896044618658097812280420095088484977009079748831370290439732218690352971777),
    (.AlterTableStatement, 0, 57896044618658097812283485086171287190495325912796464623284057099761983946790),
    (.AlterViewStatement, 0, 57896044618658097812280420095088484977009080397868477607293185502427905785888),
    (.AlterVectorIndexStatement, 0, 57896044618658097812280420092165481702345944684428215709134262089743719202816),
    (.AlterOrganizationStatement, 0, 57896044618658097812280420095088484977009079748831273576374162765781888139264),
    (.AlterProjectStatement, 0, 57896044618658097812280420095088484977009079748831292919187276599848683438080),
    (.AlterBICapacityStatement, 0, 57896044618658097812280420095088484977009079748831292919187276599848683438080),
    (.AlterReservationStatement, 0, 57896044618658097812280420095088484977009079748831292919187276599848683438080),
    (.AlterModelStatement, 0, 57896044618658097812280420095088484977009079748831370290439731936115864633344),
    (.TransactionStatement, 0, 57896044618658097712239111184440257028709063068068580740818691602083351625728),
    (.PipeStatement, 0, 57896044618658100925722880845443478165307709208026333646097427318175327846400),
    (.GroupedStatement, 0, 57896044618658100925722881031762100961957071277611563360800253499895328014336),
    (.SetOperator, 0, 57896044618658100925722880843981976528019346859114263070748376421111034814464),
    (.SelectStatement, 0, 57896044618658102130926414038201848615204190452473966676837446363936601408512),
    (.InsertStatement, 0, 57896044618658097711846983887921197717076621022526205939403095855792268509184),
    (.DeleteStatement, 0, 57896044618658098113581327335968984395973261163581051481722968738258504122368),
    (.TruncateStatement, 0, 57896044618658097711846828243842828525239444002876550425183785451002525646848),
    (.UpdateStatement, 0, 57896044618658098113581327338891987670635066999988421147155534777570369208320),
    (.MergeStatement, 0, 57896044618658097937822478746603424645903389459985668582295837341422974926848),
    (.DropRowAccessPolicyStatement, 0, 57896044618658097812280420092165481702343286228436645877388454475623158513664),
    (.DropStatement, 0, 57896044618658097812280432064786894717099992802059902806106192039629429964800),
    (.UndropStatement, 0, 57896044618658097812280420092165481702341957000440938332768006004830059364352),
    (.GrantStatement, 0, 57896044618658097711849857317245863458739146935705783642893983873905549377536),
    (.RevokeStatement, 0, 57896044618658097711846792326164131681022430241651483062305678258618343882752),
    (.DeclareStatement, 0, 57896044618658097762063606209072035591655641614779471604257365611199971983360),
    (.SetStatement, 0, 57896044618658097711846792325978589480969326229118101589830741130878059020288),
    (.ExecuteStatement, 0, 57896044618658097736955199314293364930901377304487107911790981568186164445184),
    (.IfStatement, 0, 57896044618658097711847558573749022425398505402631676744404261382352667672576),
    (.CaseStatement, 0, 57896044618658097711846792325978589480969326229118101589830777159675077984512),
    (.LoadStatement, 0, 57896044618658126636731588987803549248542470491201697835008054890593123827712),
    (.LoopStatement, 0, 57896044618658097711846792700123008637680473289261418765181035649099232182272),
    (.RepeatStatement, 0, 57896044618658097724400996170896370165352052135676751597386034768403452919808),
    (.WhileStatement, 0, 57896044618658097711846792325978589480969326229118101589813447449046713106432),
    (.BreakContinueStatement, 0, 57896044618658097711846792325978589480969326230385752190040523788301052674048),
    (.ForStatement, 0, 57896044618658097711846792325978589480969326229119358872664765799477570174976),
    (.RaiseStatement, 0, 57896044618658097736955199267525312536312483921948767254221716164660487520256),
    (.SingleTokenStatement, 0, 57896044618658097711846792325978589480969326229118101589812294386804349468672),
    (.CallStatement, 0, 57896044618658097711846792325978590177867613683200074762803490407065646530560),
    (.AssertStatement, 0, 57896044618658097711846792325978589480969326229118101589830741135276105531904),
    (.ExportDataStatement, 0, 57896044618658104139598969361939691648823012505751651342115884746251171791360),
    (.ExportModelStatement, 0, 57896044618658097812280420092165481702347273912423923253754710560536818352128)]⟩]

/-- Summaries of `parse_table`. -/
def parse_table : List Entry := [
  ⟨false, [], none,
    .node [(.CallingTableFunction, 0, 57896044618658110573579304057681821248382475847034896466469104074741388411536),
    (.GroupedExpr, 0, 57896044618658110573579304057681821247978058148187382925721058534337355448848),
    (.CallingUnnest, 0, 57896044618658114994237396365691938899239390151852646577036193821581335603152),
    (.CallingFunction, 0, 57896044618658110573579304057681821248382475847034896466469104074741388411536),
    (.AccessOperator, 0, 57896044618658110573579304057704657211082953481498229987800161001122576728592),
    (.FunctionChain, 0, 57896044618658110573579304056973906392417502022396387571442019491294610457104),
    (.DotOperator, 0, 57896044618658110573579304056973906392417502022396387571442019491294610457104),
    (.JoinOperator, 0, 57896044618658097736906159410240440056014712005083728350678823274621354115072),
    (.PipeStatement, 0, 57896044618658113787455392576415959113650989667993772565629603211806658003472),
    (.GroupedStatement, 0, 57896044618658113787455392762734581910300351737579002280332429393526658171408),
    (.FromStatement, 0, 57896044618658113787455392576393123150567694289614430386485187609750992323088),
    (.SetOperator, 0, 57896044618658113787455392574954457476362627319081701990280552314742364971536),
    (.SelectStatement, 0, 57896044618658114992658925769174329563547470912441405596369622257567931565584),
    (.BinaryOperator, 0, 57896044618658110573579304056973909180010734915474016820648860060281066226192),
    (.IsDistinctFromOperator, 0, 57896044618658110573579304056973906392417585099146124166463007877377411777040),
    (.BetweenOperator, 0, 57896044618658110573579304057088086207834061889630787006240035590146497708624),
    (.InOperator, 0, 57896044618658110573579304056973906392417585099146124128684075979235877978640),
    (.Identifier, 0, 57896044618658110573579304056951070429334206644017045392279157145165235225104),
    (.MultiTokenIdentifier, 0, 57896044618658110573603823985604924651067940196451450339217056971120172859920)]⟩]

/-- Summaries of `parse_type`. -/
def parse_type : List Entry := [
  ⟨false, [], none,
    .node [(.Type, 0, 57896044618658097716505578770210981164536381031897509921241145616986612432904)]⟩]

/-- Summaries of `parse_window_expr`. -/
def parse_window_expr : List Entry := [
  ⟨false, [], none,
    .node [(.WindowSpecification, 0, 57896044618658097711797752469401631867098902379732511607429690349958264258560),
    (.Identifier, 0, 57896044618658097711797752468670881037501859114108086894110659522920846458880)]⟩]

/-- Summaries of `parse_with_connection_clause`. -/
def parse_with_connection_clause : List Entry := [
  ⟨false, [], none,
    .node [(.KeywordSequence, 0, 57896044618658097711797752468670881037501900652482955172731687766891480219648)]⟩]

/-- Summaries of `parse_with_clause`. -/
def parse_with_clause : List Entry := [
  ⟨false, [], none,
    .node [(.WithClause, 0, 57896044618658097711797752468670931214178555808010155349476772981734234914816)]⟩]

/-- Summaries of `parse_window_clause`. -/
def parse_window_clause : List Entry := [
  ⟨false, [], none,
    .node [(.WindowClause, 0, 57896044618658099318735796727661156579463951455270689416313653305713681760256)]⟩]

/-- Summaries of `parse_xxxby_exprs`. -/
def parse_xxxby_exprs : List Entry := [
  ⟨false, [], none,
    .node [(.XXXByExprs, 0, 57896044618658097711797752468670881037501859114108086894147553011068265570304)]⟩]

/-- Summaries of `parse_groupby_exprs`. -/
def parse_groupby_exprs : List Entry := [
  ⟨false, [], none,
    .node [(.GroupByExprs, 0, 57896044618658097711797752468670881037501859114108096565554109928101663219712)]⟩]

/-- Summaries of `parse_table_sample_ratio`. -/
def parse_table_sample_ratio : List Entry := [
  ⟨false, [], none,
    .node [(.TableSampleRatio, 0, 57896044618658097711797752469401631943279596504970175957111147279355184414720)]⟩]

/-- Summaries of `parse_pivot_config_clause`. -/
def parse_pivot_config_clause : List Entry := [
  ⟨false, [], none,
    .node [(.PivotConfig, 0, 57896044618658097711797752469401631856167310573211167252906163142605953564672)]⟩]

/-- Summaries of `parse_unpivot_config_clause`. -/
def parse_unpivot_config_clause : List Entry := [
  ⟨false, [], none,
    .node [(.UnpivotConfig, 0, 57896044618658097711797752469401631856167310573211167252887716398532244013056)]⟩]

/-- Summaries of `parse_match_recognize_clause`. -/
def parse_match_recognize_clause : List Entry := [
  ⟨false, [], none,
    .node [(.MatchRecognizeClause, 0, 57896044618658097711797752468670881037501859114108086894110659522921383330320)]⟩]

/-- Summaries of `parse_match_recognize_config`. -/
def parse_match_recognize_config : List Entry := [
  ⟨false, [], none,
    .node [(.MatchRecognizeConfig, 0, 57896044618658097711797752475247638438205884274431447372656246746439571472384)]⟩]

/-- Summaries of `parse_by_name_clause`. -/
def parse_by_name_clause : List Entry := [
  ⟨false, [], none,
    .node [(.KeywordSequence, 0, 57896044618658097711797752468670881037501900652482955172731687766891480219648)]⟩]

/-- Summaries of `parse_pattern_clause`. -/
def parse_pattern_clause : List Entry := [
  ⟨false, [], none,
    .node [(.PatternClause, 0, 57896044618658097711797752468670881059279930597048148555766634398554011992064)]⟩]

/-- Summaries of `parse_grouped_pattern`. -/
def parse_grouped_pattern : List Entry := [
  ⟨false, [], none,
    .node [(.GroupedPattern, 0, 57896044618658097711797752469401631899723453539090052633780750784015143796736)]⟩]

/-- Summaries of `parse_pattern`. -/
def parse_pattern : List Entry := [
  ⟨false, [], none,
    .node [(.Pattern, 0, 57896044618658097711797753965248557664346447354681355595584471650595770466304),
    (.GroupedPattern, 0, 57896044618658097711797753965979308526568041779663321335254562911690067804160)]⟩]

/-- Summaries of `parse_quantifier`. -/
def parse_quantifier : List Entry := [
  ⟨false, [], none,
    .node [(.PatternQuantifier, 0, 57896044618658097711797752468670903338247069327399160133191096364899227402240)]⟩]

/-- Summaries of `parse_corresponding_clause`. -/
def parse_corresponding_clause : List Entry := [
  ⟨false, [], none,
    .node [(.KeywordSequence, 0, 57896044618658097711797752468670881037501900652482955172731687766891480219648),
    (.Keyword, 0, 57896044618658097711797752468670881037501859114108086894110659522920846458880),
    (.Unknown, 0, 41538374868278621028243970633760768)]⟩]

/-- Summaries of `push_trailing_alias`. -/
def push_trailing_alias : List Entry := [
  ⟨true, [], some (true, .node [(.PivotPipeOperator, 57896044618658097711797752468670881037501859114108086894110659522921383329792)]),
    .node [(.PivotPipeOperator, 0, 57896044618658097711797752468670881037501859114108086894110659522921383330320)]⟩,
  ⟨true, [], some (true, .node [(.UnpivotPipeOperator, 57896044618658097711797752468670881037501859114741912194224774223669734932480)]),
    .node [(.UnpivotPipeOperator, 0, 57896044618658097711797752468670881037501859114741912194224774223669734933008)]⟩,
  ⟨true, [], some (true, .node [(.CallingTableFunction, 57896044618658097711797752469401631856571728272057442851235293317226555244672), (.GroupedExpr, 57896044618658097711797752469401631856167310573209929310487247776822522281984), (.CallingUnnest, 57896044618658097713376223063589970169812400578354320363239102903076293443968), (.CallingFunction, 57896044618658097711797752469401631856571728272057442851235293317226555244672), (.AccessOperator, 57896044618658097711797752469424467819272205906520776372566350243607743561728), (.FunctionChain, 57896044618658097711797752468693717000606754447418933956208208733779777290240), (.DotOperator, 57896044618658097711797752468693717000606754447418933956208208733779777290240)]),
    .node [(.CallingTableFunction, 0, 57896044618658097711797752469401631856571728272057442851235293317226555245200),
    (.GroupedExpr, 0, 57896044618658097711797752469401631856167310573209929310487247776822522282512),
    (.CallingUnnest, 0, 57896044618658097713376223063589970169812400578354320363239102903076293444496),
    (.CallingFunction, 0, 57896044618658097711797752469401631856571728272057442851235293317226555245200),
    (.AccessOperator, 0, 57896044618658097711797752469424467819272205906520776372566350243607743562256),
    (.FunctionChain, 0, 57896044618658097711797752468693717000606754447418933956208208733779777290768),
    (.DotOperator, 0, 57896044618658097711797752468693717000606754447418933956208208733779777290768)]⟩,
  ⟨true, [], some (true, .node [(.PivotOperator, 57896044618658097711797752468670881037501859114108086894110659522921383329792)]),
    .node [(.PivotOperator, 0, 57896044618658097711797752468670881037501859114108086894110659522921383330320)]⟩,
  ⟨true, [], some (true, .node [(.UnpivotOperator, 57896044618658097711797752468670881037501859114113038654267801044020979826688)]),
    .node [(.UnpivotOperator, 0, 57896044618658097711797752468670881037501859114113038654267801044020979827216)]⟩,
  ⟨true, [], some (true, .node [(.MatchRecognizeClause, 57896044618658097711797752468670881037501859114108086894110659522921383329792)]),
    .node [(.MatchRecognizeClause, 0, 57896044618658097711797752468670881037501859114108086894110659522921383330320)]⟩,
  ⟨true, [], some (true, .node [(.CallingTableFunction, 57896044618658097711797752469401631856571728272057442851235293317226555244672), (.PipeStatement, 57896044618658100925673840988135769721840242093016318950395792454291824836608), (.GroupedStatement, 57896044618658100925673841174454392518489604162601548665098618636011825004544), (.FromStatement, 57896044618658100925673840988112933758756946714636976771251376852236159156224), (.SetOperator, 57896044618658100925673840986674268084551879744104248375046741557227531804672), (.SelectStatement, 57896044618658102130877374180894140171736723337463951981135811500053098398720), (.GroupedExpr, 57896044618658097711797752469401631856167310573209929310487247776822522281984), (.CallingUnnest, 57896044618658102132455844777411749507428642576875192961802383064066502436288), (.CallingFunction, 57896044618658097711797752469401631856571728272057442851235293317226555244672), (.AccessOperator, 57896044618658097711797752469424467819272205906520776372566350243607743561728), (.FunctionChain, 57896044618658097711797752468693717000606754447418933956208208733779777290240), (.DotOperator, 57896044618658097711797752468693717000606754447418933956208208733779777290240), (.BinaryOperator, 57896044618658097711797752468693719788199987340496563205415049302766233059328), (.IsDistinctFromOperator, 57896044618658097711797752468693717000606837524168670551229197119862578610176), (.BetweenOperator, 57896044618658097711797752468807896816023314314653333391006224832631664541760), (.InOperator, 57896044618658097711797752468693717000606837524168670513450265221721044811776)]),
    .node [(.CallingTableFunction, 0, 57896044618658097711797752469401631856571728272057442851235293317226555245200),
    (.PipeStatement, 0, 57896044618658100925673840988135769721840242093016318950395792454291824837136),
    (.GroupedStatement, 0, 57896044618658100925673841174454392518489604162601548665098618636011825005072),
    (.FromStatement, 0, 57896044618658100925673840988112933758756946714636976771251376852236159156752),
    (.SetOperator, 0, 57896044618658100925673840986674268084551879744104248375046741557227531805200),
    (.SelectStatement, 0, 57896044618658102130877374180894140171736723337463951981135811500053098399248),
    (.GroupedExpr, 0, 57896044618658097711797752469401631856167310573209929310487247776822522282512),
    (.CallingUnnest, 0, 57896044618658102132455844777411749507428642576875192961802383064066502436816),
    (.CallingFunction, 0, 57896044618658097711797752469401631856571728272057442851235293317226555245200),
    (.AccessOperator, 0, 57896044618658097711797752469424467819272205906520776372566350243607743562256),
    (.FunctionChain, 0, 57896044618658097711797752468693717000606754447418933956208208733779777290768),
    (.DotOperator, 0, 57896044618658097711797752468693717000606754447418933956208208733779777290768),
    (.BinaryOperator, 0, 57896044618658097711797752468693719788199987340496563205415049302766233059856),
    (.IsDistinctFromOperator, 0, 57896044618658097711797752468693717000606837524168670551229197119862578610704),
    (.BetweenOperator, 0, 57896044618658097711797752468807896816023314314653333391006224832631664542288),
    (.InOperator, 0, 57896044618658097711797752468693717000606837524168670513450265221721044812304)]⟩,
  ⟨true, [], some (true, .node [(.CallingTableFunction, 57896044618658097711797752469401631856571728272057442851235293317226555244672), (.PipeStatement, 57896044618658100925673840988135769721840242093016318950395792454291824836608), (.GroupedStatement, 57896044618658100925673841174454392518489604162601548665098618636011825004544), (.FromStatement, 57896044618658100925673840988112933758756946714636976771251376852236159156224), (.SetOperator, 57896044618658100925673840986674268084551879744104248375046741557227531804672), (.SelectStatement, 57896044618658102130877374180894140171736723337463951981135811500053098398720), (.GroupedExpr, 57896044618658097711797752469401631856167310573209929310487247776822522281984), (.CallingUnnest, 57896044618658102132455844777411749507428642576875192961802383064066502436288), (.CallingFunction, 57896044618658097711797752469401631856571728272057442851235293317226555244672), (.AccessOperator, 57896044618658097711797752469424467819272205906520776372566350243607743561728), (.FunctionChain, 57896044618658097711797752468693717000606754447418933956208208733779777290240), (.DotOperator, 57896044618658097711797752468693717000606754447418933956208208733779777290240), (.BinaryOperator, 57896044618658097711797752468693719788199987340496563205415049302766233059328), (.IsDistinctFromOperator, 57896044618658097711797752468693717000606837524168670551229197119862578610176), (.BetweenOperator, 57896044618658097711797752468807896816023314314653333391006224832631664541760), (.InOperator, 57896044618658097711797752468693717000606837524168670513450265221721044811776), (.Identifier, 57896044618658097711797752468670881037523459069039591777045346387650402058240), (.MultiTokenIdentifier, 57896044618658097711822272397324735259257192621473996723983246213605339693056)]),
    .node [(.CallingTableFunction, 0, 57896044618658097711797752469401631856571728272057442851235293317226555245200),
    (.PipeStatement, 0, 57896044618658100925673840988135769721840242093016318950395792454291824837136),
    (.GroupedStatement, 0, 57896044618658100925673841174454392518489604162601548665098618636011825005072),
    (.FromStatement, 0, 57896044618658100925673840988112933758756946714636976771251376852236159156752),
    (.SetOperator, 0, 57896044618658100925673840986674268084551879744104248375046741557227531805200),
    (.SelectStatement, 0, 57896044618658102130877374180894140171736723337463951981135811500053098399248),
    (.GroupedExpr, 0, 57896044618658097711797752469401631856167310573209929310487247776822522282512),
    (.CallingUnnest, 0, 57896044618658102132455844777411749507428642576875192961802383064066502436816),
    (.CallingFunction, 0, 57896044618658097711797752469401631856571728272057442851235293317226555245200),
    (.AccessOperator, 0, 57896044618658097711797752469424467819272205906520776372566350243607743562256),
    (.FunctionChain, 0, 57896044618658097711797752468693717000606754447418933956208208733779777290768),
    (.DotOperator, 0, 57896044618658097711797752468693717000606754447418933956208208733779777290768),
    (.BinaryOperator, 0, 57896044618658097711797752468693719788199987340496563205415049302766233059856),
    (.IsDistinctFromOperator, 0, 57896044618658097711797752468693717000606837524168670551229197119862578610704),
    (.BetweenOperator, 0, 57896044618658097711797752468807896816023314314653333391006224832631664542288),
    (.InOperator, 0, 57896044618658097711797752468693717000606837524168670513450265221721044812304),
    (.Identifier, 0, 57896044618658097711797752468670881037523459069039591777045346387650402058768),
    (.MultiTokenIdentifier, 0, 57896044618658097711822272397324735259257192621473996723983246213605339693584)]⟩]

/-- Summaries of `parse_select_statement`. -/
def parse_select_statement : List Entry := [
  ⟨false, [some true, some true], none,
    .node [(.GroupedStatement, 0, 57896044618658100925673841175915894155820507080805233497814901655667757547520),
    (.SelectStatement, 0, 57896044618658102130877374182355641809067626255667636813852094519709030941696),
    (.PipeStatement, 0, 57896044618658100925673840988135769721840242093016318950395792454291824836608),
    (.SetOperator, 0, 57896044618658100925673840988135769721882782662307933207763024576883464347648),
    (.FromStatement, 0, 57896044618658100925673840988112933758756946714636976771251376852236159156224)]⟩,
  ⟨false, [some false, some true], none,
    .node [(.PipeStatement, 0, 57896044618658100925673840988135769721840242093016318950395792454291824836608),
    (.GroupedStatement, 0, 57896044618658100925673841174454392518489604162601548665098618636011825004544),
    (.SetOperator, 0, 57896044618658100925673840986674268084551879744104248375046741557227531804672),
    (.FromStatement, 0, 57896044618658100925673840988112933758756946714636976771251376852236159156224),
    (.SelectStatement, 0, 57896044618658102130877374180894140171736723337463951981135811500053098398720)]⟩,
  ⟨false, [some false, some false], none,
    .node [(.PipeStatement, 0, 57896044618658100925673840988135769721840242093016318950395792454291824836608),
    (.GroupedStatement, 0, 57896044618658100925673841174454392518489604162601548665098618636011825004544),
    (.FromStatement, 0, 57896044618658100925673840988112933758756946714636976771251376852236159156224),
    (.SetOperator, 0, 57896044618658100925673840986674268084551879744104248375046741557227531804672),
    (.SelectStatement, 0, 57896044618658102130877374180894140171736723337463951981135811500053098398720)]⟩]

/-- Summaries of `parse_from_statement`. -/
def parse_from_statement : List Entry := [
  ⟨false, [], none,
    .node [(.FromStatement, 0, 57896044618658097711797752470132382674832762032311771726845389286650488553472),
    (.PipeStatement, 0, 57896044618658097711797752470155218637916057410691113905989804888706154233856)]⟩]

/-- Summaries of `parse_pipe_statement`. -/
def parse_pipe_statement : List Entry := [
  ⟨false, [], some (true, .any),
    .node [(.PipeStatement, 0, 57896044618658097711797752470155218637916057410691113905989804888706154233856)]⟩]

/-- Summaries of `parse_select_pipe_operator`. -/
def parse_select_pipe_operator : List Entry := [
  ⟨false, [], none,
    .node [(.SelectPipeOperator, 0, 57896044618658098515266774598166018808482905285323213455363164603213034815488)]⟩]

/-- Summaries of `parse_limit_pipe_operator`. -/
def parse_limit_pipe_operator : List Entry := [
  ⟨false, [], none,
    .node [(.LimitPipeOperator, 0, 57896044618658097711797752468670881037502523728105979352084004914598405734400)]⟩]

/-- Summaries of `parse_aggregate_pipe_operator`. -/
def parse_aggregate_pipe_operator : List Entry := [
  ⟨false, [], none,
    .node [(.AggregatePipeOperator, 0, 57896044618658097711797752468670881037501859114108088103073372625697440268288)]⟩]

/-- Summaries of `parse_union_pipe_operator`. -/
def parse_union_pipe_operator : List Entry := [
  ⟨false, [], none,
    .node [(.UnionPipeOperator, 0, 57896044618658097711797752468670881037501864307038770729089296242321536327680)]⟩]

/-- Summaries of `parse_join_pipe_operator`. -/
def parse_join_pipe_operator : List Entry := [
  ⟨false, [], none,
    .node [(.JoinPipeOperator, 0, 57896044618658097736906159410217604092846351227231396009257507126481013178368)]⟩]

/-- Summaries of `parse_tablesample_pipe_operator`. -/
def parse_tablesample_pipe_operator : List Entry := [
  ⟨false, [], none,
    .node [(.TableSamplePipeOperator, 0, 57896044618658097711797752468670881037501859114741912798687684030983785414656)]⟩]

/-- Summaries of `parse_pivot_pipe_operator`. -/
def parse_pivot_pipe_operator : List Entry := [
  ⟨false, [], none,
    .node [(.PivotPipeOperator, 0, 57896044618658097711797752468670881037501859114108086894110659522921383330320)]⟩]

/-- Summaries of `parse_unpivot_pipe_operator`. -/
def parse_unpivot_pipe_operator : List Entry := [
  ⟨false, [], none,
    .node [(.UnpivotPipeOperator, 0, 57896044618658097711797752468670881037501859114741912194224774223669734933008)]⟩]

/-- Summaries of `parse_with_pipe_operator`. -/
def parse_with_pipe_operator : List Entry := [
  ⟨false, [], none,
    .node [(.WithPipeOperator, 0, 57896044618658097711797752468670931214178555808010155349476772981734234914816)]⟩]

/-- Summaries of `parse_match_recognize_pipe_operator`. -/
def parse_match_recognize_pipe_operator : List Entry := [
  ⟨false, [], none,
    .node [(.MatchRecognizePipeOperator, 0, 57896044618658097711797752468670881037501859114108086894110659522921383330320)]⟩]

/-- Summaries of `parse_base_pipe_operator`. -/
def parse_base_pipe_operator : List Entry := [
  ⟨false, [], none,
    .node [(.BasePipeOperator, 0, 57896044618658097711797752468670881037501859114741912194261667711816617164800)]⟩]

/-- Summaries of `parse_insert_statement`. -/
def parse_insert_statement : List Entry := [
  ⟨false, [some true], none,
    .node [(.InsertStatement, 0, 57896044618658097711797944032074990910940056825719876076417744011564698042368)]⟩,
  ⟨false, [some false], none,
    .node [(.InsertStatement, 0, 57896044618658097711797944030613489273609153907516191243701460991908765499392)]⟩]

/-- Summaries of `parse_delete_statement`. -/
def parse_delete_statement : List Entry := [
  ⟨false, [some true], none,
    .node [(.DeleteStatement, 0, 57896044618658098113532287480122777589836696966774721618737616894030933655552)]⟩,
  ⟨false, [some false], none,
    .node [(.DeleteStatement, 0, 57896044618658098113532287478661275952505794048571036786021333874375001112576)]⟩]

/-- Summaries of `parse_truncate_statement`. -/
def parse_truncate_statement : List Entry := [
  ⟨false, [some true], none,
    .node [(.TruncateStatement, 0, 57896044618658097711797788387996621719102879806070220562198433606774955180032)]⟩,
  ⟨false, [some false], none,
    .node [(.TruncateStatement, 0, 57896044618658097711797788386535120081771976887866535729482150587119022637056)]⟩]

/-- Summaries of `parse_update_statement`. -/
def parse_update_statement : List Entry := [
  ⟨false, [some true], none,
    .node [(.UpdateStatement, 0, 57896044618658098113532287483045780864498502803182091284170182933342798741504)]⟩,
  ⟨false, [some false], none,
    .node [(.UpdateStatement, 0, 57896044618658098113532287481584279227167599884978406451453899913686866198528)]⟩]

/-- Summaries of `parse_merge_statement`. -/
def parse_merge_statement : List Entry := [
  ⟨false, [some true], none,
    .node [(.MergeStatement, 0, 57896044618658097937773438889295716202435922344975653886594202477539471917056)]⟩,
  ⟨false, [some false], none,
    .node [(.MergeStatement, 0, 57896044618658097937773438889295716202435922344975653886594202477539471917056)]⟩]

/-- Summaries of `parse_create_schema_statement`. -/
def parse_create_schema_statement : List Entry := [
  ⟨false, [some true], none,
    .node [(.CreateSchemaStatement, 0, 57896044618658104239983557272280377064059079080268158222160031497409301315584)]⟩,
  ⟨false, [some false], none,
    .node [(.CreateSchemaStatement, 0, 57896044618658104239983557270818875426728176162064473389443748477753368772608)]⟩]

/-- Summaries of `parse_create_search_index_statement`. -/
def parse_create_search_index_statement : List Entry := [
  ⟨false, [some true], none,
    .node [(.CreateIndexStatement, 0, 57896044618658097812231428875093765279560826327681076004857285239637754773504)]⟩,
  ⟨false, [some false], none,
    .node [(.CreateIndexStatement, 0, 57896044618658097812231428873632263642229923409477391172141002219981822230528)]⟩]

/-- Summaries of `parse_create_table_statement`. -/
def parse_create_table_statement : List Entry := [
  ⟨false, [some true], none,
    .node [(.CreateTableStatement, 0, 57896044618658129950992648575086041514508485768516151505009187920810955506176)]⟩,
  ⟨false, [some false], none,
    .node [(.CreateTableStatement, 0, 57896044618658129950992648573624539877177582850312466672292904901155022963200)]⟩]

/-- Summaries of `parse_create_view_statement`. -/
def parse_create_view_statement : List Entry := [
  ⟨false, [some true], none,
    .node [(.CreateViewStatement, 0, 57896044618658097812231380236319274907110379930091165607938940849454494253568)]⟩,
  ⟨false, [some false], none,
    .node [(.CreateViewStatement, 0, 57896044618658097812231380234857773269779477011887480775222657829798561710592)]⟩]

/-- Summaries of `parse_create_function_statement`. -/
def parse_create_function_statement : List Entry := [
  ⟨false, [some true], none,
    .node [(.CreateFunctionStatement, 0, 57896044618658097812231775332837500770695874977495865027765047318594061337096)]⟩,
  ⟨false, [some false], none,
    .node [(.CreateFunctionStatement, 0, 57896044618658097812231775331375999133364972059292180195048764298938128794120)]⟩]

/-- Summaries of `parse_create_procedure_statement`. -/
def parse_create_procedure_statement : List Entry := [
  ⟨false, [some true], none,
    .node [(.CreateProcedureStatement, 0, 57896044618658104239983557459352586642425286436841397941746857079059391709696)]⟩,
  ⟨false, [some false], none,
    .node [(.CreateProcedureStatement, 0, 57896044618658104239983557457891085005094383518637713109030574059403459166720)]⟩]

/-- Summaries of `parse_create_row_access_policy_statement`. -/
def parse_create_row_access_policy_statement : List Entry := [
  ⟨false, [some true], none,
    .node [(.CreateRowAccessPolicyStatement, 0, 57896044618658097837342852168947729729277230242481639298827494204620222234624)]⟩,
  ⟨false, [some false], none,
    .node [(.CreateRowAccessPolicyStatement, 0, 57896044618658097837342852167486228091946327324277954466111211184964289691648)]⟩]

/-- Summaries of `parse_create_model_statement`. -/
def parse_create_model_statement : List Entry := [
  ⟨false, [some true], none,
    .node [(.CreateModelStatement, 0, 57896044618658097813212177382473633322075014330727301143424780740511236358144)]⟩,
  ⟨false, [some false], none,
    .node [(.CreateModelStatement, 0, 57896044618658097813212177381012131684744111412523616310708497720855303815168)]⟩]

/-- Summaries of `parse_alter_schema_statement`. -/
def parse_alter_schema_statement : List Entry := [
  ⟨false, [some true], none,
    .node [(.AlterSchemaStatement, 0, 57896044618658097812231380239242278170872515552025040427454380374462782504961)]⟩,
  ⟨false, [some false], none,
    .node [(.AlterSchemaStatement, 0, 57896044618658097812231380237780776533541612633821355594738097354806849961985)]⟩]

/-- Summaries of `parse_alter_table_statement`. -/
def parse_alter_table_statement : List Entry := [
  ⟨false, [some true], none,
    .node [(.AlterTableStatement, 0, 57896044618658097812234445230325080384358761715990134760298705255534413479974)]⟩,
  ⟨false, [some false], none,
    .node [(.AlterTableStatement, 0, 57896044618658097812234445228863578747027858797786449927582422235878480936998)]⟩]

/-- Summaries of `parse_alter_column_statement`. -/
def parse_alter_column_statement : List Entry := [
  ⟨false, [some true], none,
    .node [(.AlterColumnStatement, 0, 57896044618658097813800655673088948361831462907826957031479972331322498613248)]⟩,
  ⟨false, [some false], none,
    .node [(.AlterColumnStatement, 0, 57896044618658097813800655671627446724500559989623272198763689311666566070272)]⟩]

/-- Summaries of `parse_alter_vector_index_statement`. -/
def parse_alter_vector_index_statement : List Entry := [
  ⟨false, [some true], none,
    .node [(.AlterVectorIndexStatement, 0, 57896044618658097812231380236319274896209380487621885846148910245516148736000)]⟩,
  ⟨false, [some false], none,
    .node [(.AlterVectorIndexStatement, 0, 57896044618658097812231380234857773258878477569418201013432627225860216193024)]⟩]

/-- Summaries of `parse_alter_view_statement`. -/
def parse_alter_view_statement : List Entry := [
  ⟨false, [some true], none,
    .node [(.AlterViewStatement, 0, 57896044618658097812231380239242278170872516201062147744307833658200335319072)]⟩,
  ⟨false, [some false], none,
    .node [(.AlterViewStatement, 0, 57896044618658097812231380237780776533541613282858462911591550638544402776096)]⟩]

/-- Summaries of `parse_alter_organization_statement`. -/
def parse_alter_organization_statement : List Entry := [
  ⟨false, [some true], none,
    .node [(.AlterOrganizationStatement, 0, 57896044618658097812231380239242278170872515552024943713388810921554317672448)]⟩,
  ⟨false, [some false], none,
    .node [(.AlterOrganizationStatement, 0, 57896044618658097812231380237780776533541612633821258880672527901898385129472)]⟩]

/-- Summaries of `parse_alter_project_statement`. -/
def parse_alter_project_statement : List Entry := [
  ⟨false, [some true], none,
    .node [(.AlterProjectStatement, 0, 57896044618658097812231380239242278170872515552024963056201924755621112971264)]⟩,
  ⟨false, [some false], none,
    .node [(.AlterProjectStatement, 0, 57896044618658097812231380237780776533541612633821278223485641735965180428288)]⟩]

/-- Summaries of `parse_alter_bicapacity_statement`. -/
def parse_alter_bicapacity_statement : List Entry := [
  ⟨false, [some true], none,
    .node [(.AlterBICapacityStatement, 0, 57896044618658097812231380239242278170872515552024963056201924755621112971264)]⟩,
  ⟨false, [some false], none,
    .node [(.AlterBICapacityStatement, 0, 57896044618658097812231380237780776533541612633821278223485641735965180428288)]⟩]

/-- Summaries of `parse_alter_reservation_statement`. -/
def parse_alter_reservation_statement : List Entry := [
  ⟨false, [some true], none,
    .node [(.AlterReservationStatement, 0, 57896044618658097812231380239242278170872515552024963056201924755621112971264)]⟩,
  ⟨false, [some false], none,
    .node [(.AlterReservationStatement, 0, 57896044618658097812231380237780776533541612633821278223485641735965180428288)]⟩]

/-- Summaries of `parse_alter_model_statement`. -/
def parse_alter_model_statement : List Entry := [
  ⟨false, [some true], none,
    .node [(.AlterModelStatement, 0, 57896044618658097812231380239242278170872515552025040427454380091888294166528)]⟩,
  ⟨false, [some false], none,
    .node [(.AlterModelStatement, 0, 57896044618658097812231380237780776533541612633821355594738097072232361623552)]⟩]

/-- Summaries of `parse_drop_row_access_policy_statement`. -/
def parse_drop_row_access_policy_statement : List Entry := [
  ⟨false, [some true], none,
    .node [(.DropRowAccessPolicyStatement, 0, 57896044618658097812231380236319274896206722031630316014403102631395588046848)]⟩,
  ⟨false, [some false], none,
    .node [(.DropRowAccessPolicyStatement, 0, 57896044618658097812231380234857773258875819113426631181686819611739655503872)]⟩]

/-- Summaries of `parse_drop_statement_general`. -/
def parse_drop_statement_general : List Entry := [
  ⟨false, [some true], none,
    .node [(.DropStatement, 0, 57896044618658097812231392208940687910963428605253572943120840195401859497984)]⟩,
  ⟨false, [some false], none,
    .node [(.DropStatement, 0, 57896044618658097812231392207479186273632525687049888110404557175745926955008)]⟩]

/-- Summaries of `parse_undrop_statement`. -/
def parse_undrop_statement : List Entry := [
  ⟨false, [some true], none,
    .node [(.UndropStatement, 0, 57896044618658097812231380236319274896205392803634608469782654160602488897536)]⟩,
  ⟨false, [some false], none,
    .node [(.UndropStatement, 0, 57896044618658097812231380234857773258874489885430923637066371140946556354560)]⟩]

/-- Summaries of `parse_grant_statement`. -/
def parse_grant_statement : List Entry := [
  ⟨false, [some true], none,
    .node [(.GrantStatement, 0, 57896044618658097711800817461399656652602582738899453779908632029677978910720)]⟩,
  ⟨false, [some false], none,
    .node [(.GrantStatement, 0, 57896044618658097711800817459938155015271679820695768947192349010022046367744)]⟩]

/-- Summaries of `parse_revoke_statement`. -/
def parse_revoke_statement : List Entry := [
  ⟨false, [some true], none,
    .node [(.RevokeStatement, 0, 57896044618658097711797752470317924874885866044845153199320326414390773415936)]⟩,
  ⟨false, [some false], none,
    .node [(.RevokeStatement, 0, 57896044618658097711797752468856423237554963126641468366604043394734840872960)]⟩]

/-- Summaries of `parse_create_reservation_statement`. -/
def parse_create_reservation_statement : List Entry := [
  ⟨false, [some true], none,
    .node [(.CreateReservationStatement, 0, 57896044618658097812231380236319274896210709715855277878312151729089879736832)]⟩,
  ⟨false, [some false], none,
    .node [(.CreateReservationStatement, 0, 57896044618658097812231380234857773258879806797651593045595868709433947193856)]⟩]

/-- Summaries of `parse_declare_statement`. -/
def parse_declare_statement : List Entry := [
  ⟨false, [some true], none,
    .node [(.DeclareStatement, 0, 57896044618658097762014566353225828785519077417973141741272013766972401516544)]⟩,
  ⟨false, [some false], none,
    .node [(.DeclareStatement, 0, 57896044618658097762014566351764327148188174499769456908555730747316468973568)]⟩]

/-- Summaries of `parse_set_statement`. -/
def parse_set_statement : List Entry := [
  ⟨false, [some true], none,
    .node [(.SetStatement, 0, 57896044618658097711797752470132382674832762032311771726845389286650488553472)]⟩,
  ⟨false, [some false], none,
    .node [(.SetStatement, 0, 57896044618658097711797752468670881037501859114108086894129106266994556010496)]⟩]

/-- Summaries of `parse_execute_statement`. -/
def parse_execute_statement : List Entry := [
  ⟨false, [some true], none,
    .node [(.ExecuteStatement, 0, 57896044618658097736906159458447158124764813107680778048805629723958593978368)]⟩,
  ⟨false, [some false], none,
    .node [(.ExecuteStatement, 0, 57896044618658097736906159456985656487433910189477093216089346704302661435392)]⟩]

/-- Summaries of `parse_begin_statement`. -/
def parse_begin_statement : List Entry := [
  ⟨false, [some true], none,
    .node [(.BeginStatement, 0, 57896044618658097711798519092047234775973088265968664056796446330491966062592)]⟩,
  ⟨false, [some false], none,
    .node [(.BeginStatement, 0, 57896044618658097711798519090585733138642185347764979224080163310836033519616)]⟩]

/-- Summaries of `parse_if_statement`. -/
def parse_if_statement : List Entry := [
  ⟨false, [some true], none,
    .node [(.IfStatement, 0, 57896044618658097711798518717902815619261941205825346881418909538125097205760)]⟩,
  ⟨false, [some false], none,
    .node [(.IfStatement, 0, 57896044618658097711798518716441313981931038287621662048702626518469164662784)]⟩]

/-- Summaries of `parse_labeled_statement`. -/
def parse_labeled_statement : List Entry := [
  ⟨false, [some true], none,
    .node [(.AlterColumnStatement, 0, 57896044618658097813849695530396656805298930022836971727181607195206001623040),
    (.FromStatement, 0, 57896044618658100925722880845420642202224413829646991466953011716119662166016),
    (.BeginStatement, 0, 57896044618658097711847558949354943219440555380978678752498081194375469072384),
    (.CreateSchemaStatement, 0, 57896044618658104240032597129588085507526546195278172917861666361292804325376),
    (.CreateFunctionStatement, 0, 57896044618658097812280815190145209214163342092505879723466682182477564346888),
    (.CreateTableStatement, 0, 57896044618658129951041688432393749957975952883526166200710822784694458515968),
    (.CreateViewStatement, 0, 57896044618658097812280420093626983350577847045101180303640575713337997263360),
    (.CreateProcedureStatement, 0, 57896044618658104240032597316660295085892753551851412637448491942942894719488),
    (.CreateRowAccessPolicyStatement, 0, 57896044618658097837391892026255438172744697357491653994529129068503725244416),
    (.CreateReservationStatement, 0, 57896044618658097812280420093626983339678176830865292574013786592973382746624),
    (.CreateIndexStatement, 0, 57896044618658097812280468732401473723028293442691090700558920103521257783296),
    (.CreateModelStatement, 0, 57896044618658097813261217239781341765542481445737315839126415604394739367936),
    (.AlterSchemaStatement, 0, 57896044618658097812280420096549986614339982667035055123156015238346285514753),
    (.AlterTableStatement, 0, 57896044618658097812283485087632788827826228831000149456000340119417916489766),
    (.AlterViewStatement, 0, 57896044618658097812280420096549986614339983316072162440009468522083838328864),
    (.AlterVectorIndexStatement, 0, 57896044618658097812280420093626983339676847602631900541850545109399651745792),
    (.AlterOrganizationStatement, 0, 57896044618658097812280420096549986614339982667034958409090445785437820682240),
    (.AlterProjectStatement, 0, 57896044618658097812280420096549986614339982667034977751903559619504615981056),
    (.AlterBICapacityStatement, 0, 57896044618658097812280420096549986614339982667034977751903559619504615981056),
    (.AlterReservationStatement, 0, 57896044618658097812280420096549986614339982667034977751903559619504615981056),
    (.AlterModelStatement, 0, 57896044618658097812280420096549986614339982667035055123156014955771797176320),
    (.TransactionStatement, 0, 57896044618658097712239111185901758666039965986272265573534974621739284168704),
    (.PipeStatement, 0, 57896044618658100925722880845443478165307709208026333646097427318175327846400),
    (.GroupedStatement, 0, 57896044618658100925722881033223602599287974195815248193516536519551260557312),
    (.SetOperator, 0, 57896044618658100925722880845443478165350249777317947903464659440766967357440),
    (.SelectStatement, 0, 57896044618658102130926414039663350252535093370677651509553729383592533951488),
    (.InsertStatement, 0, 57896044618658097711846983889382699354407523940729890772119378875448201052160),
    (.DeleteStatement, 0, 57896044618658098113581327337430486033304164081784736314439251757914436665344),
    (.TruncateStatement, 0, 57896044618658097711846828245304330162570346921080235257900068470658458189824),
    (.UpdateStatement, 0, 57896044618658098113581327340353489307965969918192105979871817797226301751296),
    (.MergeStatement, 0, 57896044618658097937822478746603424645903389459985668582295837341422974926848),
    (.DropRowAccessPolicyStatement, 0, 57896044618658097812280420093626983339674189146640330710104737495279091056640),
    (.DropStatement, 0, 57896044618658097812280432066248396354430895720263587638822475059285362507776),
    (.UndropStatement, 0, 57896044618658097812280420093626983339672859918644623165484289024485991907328),
    (.GrantStatement, 0, 57896044618658097711849857318707365096070049853909468475610266893561481920512),
    (.RevokeStatement, 0, 57896044618658097711846792327625633318353333159855167895021961278274276425728),
    (.DeclareStatement, 0, 57896044618658097762063606210533537228986544532983156436973648630855904526336),
    (.SetStatement, 0, 57896044618658097711846792327440091118300229147321786422547024150533991563264),
    (.ExecuteStatement, 0, 57896044618658097736955199315754866568232280222690792744507264587842096988160),
    (.IfStatement, 0, 57896044618658097711847558575210524062729408320835361577120544402008600215552),
    (.CaseStatement, 0, 57896044618658097711846792327440091118300229147321786422547060179331010527488),
    (.LoadStatement, 0, 57896044618658126636731588989265050885873373409405382667724337910249056370688),
    (.LoopStatement, 0, 57896044618658097711846792701584510275011376207465103597897318668755164725248),
    (.RepeatStatement, 0, 57896044618658097724400996172357871802682955053880436430102317788059385462784),
    (.WhileStatement, 0, 57896044618658097711846792327440091118300229147321786422529730468702645649408),
    (.BreakContinueStatement, 0, 57896044618658097711846792327440091118300229148589437022756806807956985217024),
    (.ForStatement, 0, 57896044618658097711846792327440091118300229147323043705381048819133502717952),
    (.RaiseStatement, 0, 57896044618658097736955199268986814173643386840152452086937999184316420063232),
    (.SingleTokenStatement, 0, 57896044618658097711846792327440091118300229147321786422528577406460282011648),
    (.CallStatement, 0, 57896044618658097711846792327440091815198516601403759595519773426721579073536),
    (.AssertStatement, 0, 57896044618658097711846792327440091118300229147321786422547024154932038074880),
    (.ExportDataStatement, 0, 57896044618658104139598969363401193286153915423955336174832167765907104334336),
    (.ExportModelStatement, 0, 57896044618658097812280420093626983339678176830627608086470993580192750895104)]⟩,
  ⟨false, [some false], none,
    .node [(.AlterColumnStatement, 0, 57896044618658097813849695528935155167968027104633286894465324175550069080064),
    (.FromStatement, 0, 57896044618658100925722880845420642202224413829646991466953011716119662166016),
    (.BeginStatement, 0, 57896044618658097711847558947893441582109652462774993919781798174719536529408),
    (.CreateSchemaStatement, 0, 57896044618658104240032597128126583870195643277074488085145383341636871782400),
    (.CreateFunctionStatement, 0, 57896044618658097812280815188683707576832439174302194890750399162821631803912),
    (.CreateTableStatement, 0, 57896044618658129951041688430932248320645049965322481367994539765038525972992),
    (.CreateViewStatement, 0, 57896044618658097812280420092165481713246944126897495470924292693682064720384),
    (.CreateProcedureStatement, 0, 57896044618658104240032597315198793448561850633647727804732208923286962176512),
    (.CreateRowAccessPolicyStatement, 0, 57896044618658097837391892024793936535413794439287969161812846048847792701440),
    (.CreateReservationStatement, 0, 57896044618658097812280420092165481702347273912661607741297503573317450203648),
    (.CreateIndexStatement, 0, 57896044618658097812280468730939972085697390524487405867842637083865325240320),
    (.CreateModelStatement, 0, 57896044618658097813261217238319840128211578527533631006410132584738806824960),
    (.AlterSchemaStatement, 0, 57896044618658097812280420095088484977009079748831370290439732218690352971777),
    (.AlterTableStatement, 0, 57896044618658097812283485086171287190495325912796464623284057099761983946790),
    (.AlterViewStatement, 0, 57896044618658097812280420095088484977009080397868477607293185502427905785888),
    (.AlterVectorIndexStatement, 0, 57896044618658097812280420092165481702345944684428215709134262089743719202816),
    (.AlterOrganizationStatement, 0, 57896044618658097812280420095088484977009079748831273576374162765781888139264),
    (.AlterProjectStatement, 0, 57896044618658097812280420095088484977009079748831292919187276599848683438080),
    (.AlterBICapacityStatement, 0, 57896044618658097812280420095088484977009079748831292919187276599848683438080),
    (.AlterReservationStatement, 0, 57896044618658097812280420095088484977009079748831292919187276599848683438080),
    (.AlterModelStatement, 0, 57896044618658097812280420095088484977009079748831370290439731936115864633344),
    (.TransactionStatement, 0, 57896044618658097712239111184440257028709063068068580740818691602083351625728),
    (.PipeStatement, 0, 57896044618658100925722880845443478165307709208026333646097427318175327846400),
    (.GroupedStatement, 0, 57896044618658100925722881031762100961957071277611563360800253499895328014336),
    (.SetOperator, 0, 57896044618658100925722880843981976528019346859114263070748376421111034814464),
    (.SelectStatement, 0, 57896044618658102130926414038201848615204190452473966676837446363936601408512),
    (.InsertStatement, 0, 57896044618658097711846983887921197717076621022526205939403095855792268509184),
    (.DeleteStatement, 0, 57896044618658098113581327335968984395973261163581051481722968738258504122368),
    (.TruncateStatement, 0, 57896044618658097711846828243842828525239444002876550425183785451002525646848),
    (.UpdateStatement, 0, 57896044618658098113581327338891987670635066999988421147155534777570369208320),
    (.MergeStatement, 0, 57896044618658097937822478746603424645903389459985668582295837341422974926848),
    (.DropRowAccessPolicyStatement, 0, 57896044618658097812280420092165481702343286228436645877388454475623158513664),
    (.DropStatement, 0, 57896044618658097812280432064786894717099992802059902806106192039629429964800),
    (.UndropStatement, 0, 57896044618658097812280420092165481702341957000440938332768006004830059364352),
    (.GrantStatement, 0, 57896044618658097711849857317245863458739146935705783642893983873905549377536),
    (.RevokeStatement, 0, 57896044618658097711846792326164131681022430241651483062305678258618343882752),
    (.DeclareStatement, 0, 57896044618658097762063606209072035591655641614779471604257365611199971983360),
    (.SetStatement, 0, 57896044618658097711846792325978589480969326229118101589830741130878059020288),
    (.ExecuteStatement, 0, 57896044618658097736955199314293364930901377304487107911790981568186164445184),
    (.IfStatement, 0, 57896044618658097711847558573749022425398505402631676744404261382352667672576),
    (.CaseStatement, 0, 57896044618658097711846792325978589480969326229118101589830777159675077984512),
    (.LoadStatement, 0, 57896044618658126636731588987803549248542470491201697835008054890593123827712),
    (.LoopStatement, 0, 57896044618658097711846792700123008637680473289261418765181035649099232182272),
    (.RepeatStatement, 0, 57896044618658097724400996170896370165352052135676751597386034768403452919808),
    (.WhileStatement, 0, 57896044618658097711846792325978589480969326229118101589813447449046713106432),
    (.BreakContinueStatement, 0, 57896044618658097711846792325978589480969326230385752190040523788301052674048),
    (.ForStatement, 0, 57896044618658097711846792325978589480969326229119358872664765799477570174976),
    (.RaiseStatement, 0, 57896044618658097736955199267525312536312483921948767254221716164660487520256),
    (.SingleTokenStatement, 0, 57896044618658097711846792325978589480969326229118101589812294386804349468672),
    (.CallStatement, 0, 57896044618658097711846792325978590177867613683200074762803490407065646530560),
    (.AssertStatement, 0, 57896044618658097711846792325978589480969326229118101589830741135276105531904),
    (.ExportDataStatement, 0, 57896044618658104139598969361939691648823012505751651342115884746251171791360),
    (.ExportModelStatement, 0, 57896044618658097812280420092165481702347273912423923253754710560536818352128)]⟩]

/-- Summaries of `parse_break_continue_statement`. -/
def parse_break_continue_statement : List Entry := [
  ⟨false, [some true], none,
    .node [(.BreakContinueStatement, 0, 57896044618658097711797752470132382674832762033579422327055171944073482207232)]⟩,
  ⟨false, [some false], none,
    .node [(.BreakContinueStatement, 0, 57896044618658097711797752468670881037501859115375737494338888924417549664256)]⟩]

/-- Summaries of `parse_loop_statement`. -/
def parse_loop_statement : List Entry := [
  ⟨false, [some true], none,
    .node [(.LoopStatement, 0, 57896044618658097711797752844276801831543909092455088902195683804871661715456)]⟩,
  ⟨false, [some false], none,
    .node [(.LoopStatement, 0, 57896044618658097711797752842815300194213006174251404069479400785215729172480)]⟩]

/-- Summaries of `parse_repeat_statement`. -/
def parse_repeat_statement : List Entry := [
  ⟨false, [some true], none,
    .node [(.RepeatStatement, 0, 57896044618658097724351956315050163359215487938870421734400682924175882452992)]⟩,
  ⟨false, [some false], none,
    .node [(.RepeatStatement, 0, 57896044618658097724351956313588661721884585020666736901684399904519949910016)]⟩]

/-- Summaries of `parse_while_statement`. -/
def parse_while_statement : List Entry := [
  ⟨false, [some true], none,
    .node [(.WhileStatement, 0, 57896044618658097711797752470132382674832762032311771726828095604819142639616)]⟩,
  ⟨false, [some false], none,
    .node [(.WhileStatement, 0, 57896044618658097711797752468670881037501859114108086894111812585163210096640)]⟩]

/-- Summaries of `parse_single_token_statement`. -/
def parse_single_token_statement : List Entry := [
  ⟨false, [some true], none,
    .node [(.SingleTokenStatement, 0, 57896044618658097711797752470132382674832762032311771726826942542576779001856)]⟩,
  ⟨false, [some false], none,
    .node [(.SingleTokenStatement, 0, 57896044618658097711797752468670881037501859114108086894110659522920846458880)]⟩]

/-- Summaries of `parse_for_statement`. -/
def parse_for_statement : List Entry := [
  ⟨false, [some true], none,
    .node [(.ForStatement, 0, 57896044618658097711797752470132382674832762032313029009679413955249999708160)]⟩,
  ⟨false, [some false], none,
    .node [(.ForStatement, 0, 57896044618658097711797752468670881037501859114109344176963130935594067165184)]⟩]

/-- Summaries of `parse_transaction_statement`. -/
def parse_transaction_statement : List Entry := [
  ⟨false, [some true], none,
    .node [(.TransactionStatement, 0, 57896044618658097712190071328594050222572498871262250877833339757855781158912)]⟩,
  ⟨false, [some false], none,
    .node [(.TransactionStatement, 0, 57896044618658097712190071327132548585241595953058566045117056738199848615936)]⟩]

/-- Summaries of `parse_raise_statement`. -/
def parse_raise_statement : List Entry := [
  ⟨false, [some true], none,
    .node [(.RaiseStatement, 0, 57896044618658097736906159411679105730175919725142437391236364320432917053440)]⟩,
  ⟨false, [some false], none,
    .node [(.RaiseStatement, 0, 57896044618658097736906159410217604092845016806938752558520081300776984510464)]⟩]

/-- Summaries of `parse_case_statement`. -/
def parse_case_statement : List Entry := [
  ⟨false, [some true], none,
    .node [(.CaseStatement, 0, 57896044618658097711797752470132382674832762032311771726845425315447507517696)]⟩,
  ⟨false, [some false], none,
    .node [(.CaseStatement, 0, 57896044618658097711797752468670881037501859114108086894129142295791574974720)]⟩]

/-- Summaries of `parse_call_statement`. -/
def parse_call_statement : List Entry := [
  ⟨false, [some true], none,
    .node [(.CallStatement, 0, 57896044618658097711797752470132383371731049486393744899818138562838076063744)]⟩,
  ⟨false, [some false], none,
    .node [(.CallStatement, 0, 57896044618658097711797752468670881734400146568190060067101855543182143520768)]⟩]

/-- Summaries of `parse_assert_satement`. -/
def parse_assert_satement : List Entry := [
  ⟨false, [some true], none,
    .node [(.AssertStatement, 0, 57896044618658097711797752470132382674832762032311771726845389291048535065088)]⟩,
  ⟨false, [some false], none,
    .node [(.AssertStatement, 0, 57896044618658097711797752468670881037501859114108086894129106271392602522112)]⟩]

/-- Summaries of `parse_export_data_statement`. -/
def parse_export_data_statement : List Entry := [
  ⟨false, [some true], none,
    .node [(.ExportDataStatement, 0, 57896044618658104139549929506093484842686448308945321479130532902023601324544)]⟩,
  ⟨false, [some false], none,
    .node [(.ExportDataStatement, 0, 57896044618658104139549929504631983205355545390741636646414249882367668781568)]⟩]

/-- Summaries of `parse_export_model_statement`. -/
def parse_export_model_statement : List Entry := [
  ⟨false, [some true], none,
    .node [(.ExportModelStatement, 0, 57896044618658097812231380236319274896210709715617593390769358716309247885312)]⟩,
  ⟨false, [some false], none,
    .node [(.ExportModelStatement, 0, 57896044618658097812231380234857773258879806797413908558053075696653315342336)]⟩]

/-- Summaries of `parse_load_statement`. -/
def parse_load_statement : List Entry := [
  ⟨false, [some true], none,
    .node [(.LoadStatement, 0, 57896044618658126636682549131957342442405906294395367972022703046365553360896)]⟩,
  ⟨false, [some false], none,
    .node [(.LoadStatement, 0, 57896044618658126636682549130495840805075003376191683139306420026709620817920)]⟩]

/-- The table. -/
def table : Fn → List Entry
  | .parse_between_operator => parse_between_operator
  | .parse_binary_operator => parse_binary_operator
  | .parse_constraint => parse_constraint
  | .parse_cte => parse_cte
  | .parse_enforced => parse_enforced
  | .parse_expr => parse_expr
  | .parse_exprs => parse_exprs
  | .parse_grouped_exprs => parse_grouped_exprs
  | .parse_grouped_type_declaration_or_constraints => parse_grouped_type_declaration_or_constraints
  | .parse_identifier => parse_identifier
  | .parse_single_or_multi_token_identifier => parse_single_or_multi_token_identifier
  | .parse_in_operator => parse_in_operator
  | .parse_is_distinct_from_operator => parse_is_distinct_from_operator
  | .parse_keyword_with_grouped_exprs => parse_keyword_with_grouped_exprs
  | .parse_keyword_with_statements => parse_keyword_with_statements
  | .parse_n_keywords => parse_n_keywords
  | .parse_set_operator => parse_set_operator
  | .parse_statement => parse_statement
  | .parse_table => parse_table
  | .parse_type => parse_type
  | .parse_window_expr => parse_window_expr
  | .parse_with_connection_clause => parse_with_connection_clause
  | .parse_with_clause => parse_with_clause
  | .parse_window_clause => parse_window_clause
  | .parse_xxxby_exprs => parse_xxxby_exprs
  | .parse_groupby_exprs => parse_groupby_exprs
  | .parse_table_sample_ratio => parse_table_sample_ratio
  | .parse_pivot_config_clause => parse_pivot_config_clause
  | .parse_unpivot_config_clause => parse_unpivot_config_clause
  | .parse_match_recognize_clause => parse_match_recognize_clause
  | .parse_match_recognize_config => parse_match_recognize_config
  | .parse_by_name_clause => parse_by_name_clause
  | .parse_pattern_clause => parse_pattern_clause
  | .parse_grouped_pattern => parse_grouped_pattern
  | .parse_pattern => parse_pattern
  | .parse_quantifier => parse_quantifier
  | .parse_corresponding_clause => parse_corresponding_clause
  | .push_trailing_alias => push_trailing_alias
  | .parse_select_statement => parse_select_statement
  | .parse_from_statement => parse_from_statement
  | .parse_pipe_statement => parse_pipe_statement
  | .parse_select_pipe_operator => parse_select_pipe_operator
  | .parse_limit_pipe_operator => parse_limit_pipe_operator
  | .parse_aggregate_pipe_operator => parse_aggregate_pipe_operator
  | .parse_union_pipe_operator => parse_union_pipe_operator
  | .parse_join_pipe_operator => parse_join_pipe_operator
  | .parse_tablesample_pipe_operator => parse_tablesample_pipe_operator
  | .parse_pivot_pipe_operator => parse_pivot_pipe_operator
  | .parse_unpivot_pipe_operator => parse_unpivot_pipe_operator
  | .parse_with_pipe_operator => parse_with_pipe_operator
  | .parse_match_recognize_pipe_operator => parse_match_recognize_pipe_operator
  | .parse_base_pipe_operator => parse_base_pipe_operator
  | .parse_insert_statement => parse_insert_statement
  | .parse_delete_statement => parse_delete_statement
  | .parse_truncate_statement => parse_truncate_statement
  | .parse_update_statement => parse_update_statement
  | .parse_merge_statement => parse_merge_statement
  | .parse_create_schema_statement => parse_create_schema_statement
  | .parse_create_search_index_statement => parse_create_search_index_statement
  | .parse_create_table_statement => parse_create_table_statement
  | .parse_create_view_statement => parse_create_view_statement
  | .parse_create_function_statement => parse_create_function_statement
  | .parse_create_procedure_statement => parse_create_procedure_statement
  | .parse_create_row_access_policy_statement => parse_create_row_access_policy_statement
  | .parse_create_model_statement => parse_create_model_statement
  | .parse_alter_schema_statement => parse_alter_schema_statement
  | .parse_alter_table_statement => parse_alter_table_statement
  | .parse_alter_column_statement => parse_alter_column_statement
  | .parse_alter_vector_index_statement => parse_alter_vector_index_statement
  | .parse_alter_view_statement => parse_alter_view_statement
  | .parse_alter_organization_statement => parse_alter_organization_statement
  | .parse_alter_project_statement => parse_alter_project_statement
  | .parse_alter_bicapacity_statement => parse_alter_bicapacity_statement
  | .parse_alter_reservation_statement => parse_alter_reservation_statement
  | .parse_alter_model_statement => parse_alter_model_statement
  | .parse_drop_row_access_policy_statement => parse_drop_row_access_policy_statement
  | .parse_drop_statement_general => parse_drop_statement_general
  | .parse_undrop_statement => parse_undrop_statement
  | .parse_grant_statement => parse_grant_statement
  | .parse_revoke_statement => parse_revoke_statement
  | .parse_create_reservation_statement => parse_create_reservation_statement
  | .parse_declare_statement => parse_declare_statement
  | .parse_set_statement => parse_set_statement
  | .parse_execute_statement => parse_execute_statement
  | .parse_begin_statement => parse_begin_statement
  | .parse_if_statement => parse_if_statement
  | .parse_labeled_statement => parse_labeled_statement
  | .parse_break_continue_statement => parse_break_continue_statement
  | .parse_loop_statement => parse_loop_statement
  | .parse_repeat_statement => parse_repeat_statement
  | .parse_while_statement => parse_while_statement
  | .parse_single_token_statement => parse_single_token_statement
  | .parse_for_statement => parse_for_statement
  | .parse_transaction_statement => parse_transaction_statement
  | .parse_raise_statement => parse_raise_statement
  | .parse_case_statement => parse_case_statement
  | .parse_call_statement => parse_call_statement
  | .parse_assert_satement => parse_assert_satement
  | .parse_export_data_statement => parse_export_data_statement
  | .parse_export_model_statement => parse_export_model_statement
  | .parse_load_statement => parse_load_statement

end Verif.OI.Table
