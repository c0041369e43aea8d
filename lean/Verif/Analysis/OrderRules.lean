import Verif.Analysis.Order
/-! Generated by tools/order.py: for each node type and slot, the slots that do not come before it, as a
bit mask.  Includes `Spec.sourceOrder` (checked in Verif.Analysis.OrderCheck). -/
namespace Verif.OI

/-- The rules. -/
def rules : Rules
  | .AccessOperator => [(104, 57896044618658110573579304058070032620415679190766741592327561332089442796048),
      (102, 57896044618658110573579304058070032620415679185696139191414643726102629974544),
      (255, 12861793811553726078693780686852875857171685851722146065154576),
      (183, 12861781551589399151582913820076658654698216901809168596337168),
      (154, 12861781551589376315619830524718561722122705709886986472391184),
      (159, 12861781551588645564801165073259459879706347568377158506119696),
      (9, 12861781551588645564801143473304528374823412881512428950519824),
      (4, 12861781551588645564801143473304528374823412881512428950519808),
      (124, 12861781551588645564801143805611527321052381107464194020605952),
      (118, 12861781551588645564801143473304528374823412881512428950519808),
      (72, 12861781551588645564801143473304528374818690515029559305306112),
      (158, 12861781551588280189391810747574977453615233810757514967384080),
      (27, 12861781551588280189391810747574977453615233810757514833166336),
      (203, 6277197516723360465446734575227554641066564767216622895104),
      (107, 6277197516723360465446734412968277811853201375638612606976),
      (137, 6277197516723360291222162711707061347818765762151298629632),
      (192, 95781336679701610945152019888224964209322752588382208),
      (176, 365375409332725729550921208179070754914117353472)]
  | .AddColumnClause => [
      (102, 57896044618658097815369931102551113640792384591964135101391517423125099708416),
      (255, 103584438598207159714157392259143853081662725419168534888448),
      (183, 103572178633880232603290525482926650608193775506191066071040),
      (196, 3138550867693340381917894711603987950556088394766513864704),
      (87, 3138550867693340381917894711603833208051177722232151474176), (191, 134217728)]
  | .AddConstraintClause => [
      (102, 57896044618658097812231380234857773258874489880360147150835429028358720061440),
      (255, 100445887730513819332239497547539865131106637024402155241472),
      (183, 100433627766186892221372630771322662657637687111424686424064), (196, 134217728)]
  | .AggregatePipeOperator => [
      (102, 57896044618658097711797752468670881037501859109671311002274569720458979049472),
      (255, 12259964326927110866866776851028982545777716502414229504), (183, 633826509076827803524945412096),
      (65, 633826509039934315377526308864), (80, 633825300114114700748351602688),
      (99, 57896044618658097711797752468670881037501859114108088103073372625697440268288)]
  | .AlterColumnStatement => [
      (103, 57896044618658097813849695530396656805298930012695766925355771983232375980032),
      (21, 57896044618658097813849695530396656805298930012695766925355771983232373882880),
      (102, 57896044618658097813849695530396656805298930007625164524442854377245561061376),
      (255, 102064203026052702878663937674804882504714062373288996241408),
      (183, 102051943061725775767797070898587680031245112460311527424000),
      (196, 1618315295538883546424440127265017373607425348886975217664),
      (86, 1618315295538883546424440127264940002354970012619794022400),
      (84, 1618315295538883546424440127264920659541856178552998723584),
      (50, 1618315295538883546424440127264920659541855052653091880960),
      (51, 1618315295538883546424440127264920659541853926753185038336),
      (161, 1618315292615880271762634290857550994109290139241133637632),
      (36, 1618315292615880271762634290857550994109290139172414160896),
      (39, 1618315292615880271762634290857550994109290138691377823744),
      (122, 1618315292615880271757317378874411330617674911000012259328),
      (190, 49039858769210080803686935055634390083701278056405532672),
      (185, 1461501637330902918203684832716283019655932542976)]
  | .AlterBICapacityStatement => [
      (103, 57896044618658097812280420096549986614339982656893772950077724407530990338048),
      (21, 57896044618658097812280420096549986614339982656893772950077724407530988240896),
      (102, 57896044618658097812280420096549986614339982651823170549164806801544175419392),
      (255, 100494927592206032687704990319002888529436014797587610599424),
      (183, 100482667627879105576838123542785686055967064884610141782016),
      (196, 49039861692213355465492771463023398329377773185589575680),
      (84, 49039861692213355465492771463004055516263939118794276864),
      (161, 49039858769210080803686935055634390083697899806929190912),
      (122, 49039858769210080798370023072494726592082671565807812608),
      (185, 1461501637330902918203684832716283019655932542976)]
  | .AlterModelStatement => [
      (103, 57896044618658097812280420096549986614339982656893850321330179743798171533312),
      (21, 57896044618658097812280420096549986614339982656893850321330179743798169436160),
      (102, 57896044618658097812280420096549986614339982651823247920417262137811356614656),
      (255, 100494927592206032687704990319002965900688470133854791794688),
      (183, 100482667627879105576838123542785763427219520220877322977280),
      (196, 49039861692213355465492771463100769581833109452770770944),
      (86, 49039861692213355465492771463023398329377773185589575680),
      (84, 49039861692213355465492771463004055516263939118794276864),
      (161, 49039858769210080803686935055634390083697899806929190912),
      (122, 49039858769210080798370023072494726592082671565807812608),
      (185, 1461501637330902918203684832716283019655932542976)]
  | .AlterOrganizationStatement => [
      (103, 57896044618658097812280420096549986614339982656893753607264610573464195039232),
      (21, 57896044618658097812280420096549986614339982656893753607264610573464192942080),
      (102, 57896044618658097812280420096549986614339982651823151206351692967477380120576),
      (255, 100494927592206032687704990319002869186622900963520815300608),
      (183, 100482667627879105576838123542785666713153951050543346483200),
      (196, 49039861692213355465492771463004055516263939118794276864),
      (161, 49039858769210080803686935055634390083697899806929190912),
      (122, 49039858769210080798370023072494726592082671565807812608),
      (185, 1461501637330902918203684832716283019655932542976)]
  | .AlterTableDropClause => [
      (102, 57896044618658097812231380234857773258874489880360243864900998198692696555520),
      (255, 100445887730513819332239497547539961845172206194736131735552),
      (183, 100433627766186892221372630771322759371703256281758662918144), (196, 96714065569170334110711808),
      (86, 19342813113834066929516544), (84, 134217728)]
  | .AlterProjectStatement => [
      (103, 57896044618658097812280420096549986614339982656893772950077724407530990338048),
      (21, 57896044618658097812280420096549986614339982656893772950077724407530988240896),
      (102, 57896044618658097812280420096549986614339982651823170549164806801544175419392),
      (255, 100494927592206032687704990319002888529436014797587610599424),
      (183, 100482667627879105576838123542785686055967064884610141782016),
      (196, 49039861692213355465492771463023398329377773185589575680),
      (84, 49039861692213355465492771463004055516263939118794276864),
      (161, 49039858769210080803686935055634390083697899806929190912),
      (122, 49039858769210080798370023072494726592082671565807812608),
      (185, 1461501637330902918203684832716283019655932542976)]
  | .AlterReservationStatement => [
      (103, 57896044618658097812280420096549986614339982656893772950077724407530990338048),
      (21, 57896044618658097812280420096549986614339982656893772950077724407530988240896),
      (102, 57896044618658097812280420096549986614339982651823170549164806801544175419392),
      (255, 100494927592206032687704990319002888529436014797587610599424),
      (183, 100482667627879105576838123542785686055967064884610141782016),
      (196, 49039861692213355465492771463023398329377773185589575680),
      (84, 49039861692213355465492771463004055516263939118794276864),
      (161, 49039858769210080803686935055634390083697899806929190912),
      (122, 49039858769210080798370023072494726592082671565807812608),
      (185, 1461501637330902918203684832716283019655932542976)]
  | .AlterSchemaStatement => [
      (103, 57896044618658097812280420096549986614339982656893850321330180026372659871745),
      (21, 57896044618658097812280420096549986614339982656893850321330180026372657774593),
      (102, 57896044618658097812280420096549986614339982651823247920417262420385844953089),
      (255, 100494927592206032687704990319002965900688470416429280133121),
      (183, 100482667627879105576838123542785763427219520503451811315713),
      (196, 49039861692213355465492771463100769581833392027259109377),
      (86, 49039861692213355465492771463023398329378055760077914113),
      (84, 49039861692213355465492771463004055516264221693282615297),
      (0, 49039861692213355465492771463004055516264221693282615296),
      (48, 49039861692213355465492771463004055516263940218305904641),
      (161, 49039858769210080803686935055634390083698182381417529345),
      (40, 49039858769210080803686935055634390083698181281905901569),
      (122, 49039858769210080798370023072494726592082671565807812608),
      (185, 1461501637330902918203684832716283019655932542976)]
  | .AlterTableStatement => [
      (103, 57896044618658097812283485087632788827826228820858944654174504907444290846758),
      (21, 57896044618658097812283485087632788827826228820858944654174504907444288749606),
      (102, 57896044618658097812283485087632788827826228815788342253261587301457475928102),
      (255, 100497992583288834901191236482968060233532795297500911108134),
      (183, 100485732618961907790324369706750857760063845384523442290726),
      (196, 52104852775015568951738935428195102426158273098890084390),
      (86, 52104852775015568951738935428117731173702936831708889126),
      (84, 52104852775015568951738935428098388360589102764913590310),
      (1, 52104852775015568951738935428098388360589102764913590308),
      (2, 52104852775015568951738935428098388360589102764913590306),
      (5, 52104852775015568951738935428098388360589102764913590278),
      (49, 52104852775015568951738935428098388360588539814960168998),
      (148, 52104852774658757028562445457833816868226728980817903654),
      (149, 52104852774301945105385955487569245375864355196722216998),
      (161, 52104849852012294289933099020728722928023063453048504358),
      (40, 52104849852012294289933099020728722928023062353536876582),
      (122, 52104849852012294284616187037589059436407835211927126054),
      (181, 49039861692926979311845751403533198500989250736450699302),
      (185, 1461501637330902918203684832716283019655932542976)]
  | .AlterVectorIndexStatement => [
      (103, 57896044618658097812280420093626983339676847592490695740024709897426026102784),
      (21, 57896044618658097812280420093626983339676847592490695740024709897426024005632),
      (102, 57896044618658097812280420093626983339676847587420093339111792291439211184128),
      (255, 100494927589283029413041855254599811319383000287482646364160),
      (183, 100482667624956102302174988478382608845914050374505177546752),
      (196, 49039858769210080802357707059946188276363263080625340416),
      (86, 49039858769210080802357707059868817023907926813444145152),
      (84, 49039858769210080802357707059849474210794092746648846336),
      (120, 49039858769210080801028479064064558337890285686368501760),
      (121, 49039858769210080798370023072494726592082671565807812608),
      (185, 1461501637330902918203684832716283019655932542976)]
  | .AlterViewStatement => [
      (103, 57896044618658097812280420096549986614339983305930957638183633310110212685856),
      (21, 57896044618658097812280420096549986614339983305930957638183633310110210588704),
      (102, 57896044618658097812280420096549986614339983300860355237270715704123397767200),
      (255, 100494927592206032687704990968040073217541923700166832947232),
      (183, 100482667627879105576838124191822870744072973787189364129824),
      (109, 100482667627879105576838123542785763427219520220877322977312),
      (196, 49039861692213355465492771463100769581833109452770770976),
      (86, 49039861692213355465492771463023398329377773185589575712),
      (84, 49039861692213355465492771463004055516263939118794276896),
      (5, 49039861692213355465492771463004055516263939118794276864),
      (161, 49039858769210080803686935055634390083697899806929190944),
      (122, 49039858769210080798370023072494726592082671565807812640),
      (185, 1461501637330902918203684832716283019655932542976)]
  | .ArrayLiteral => [(190, 57896044618658097711797752469767007265521636257692355401619452140539904786960),
      (102, 57896044618658097711797752469767007265521636252621753000706534534553091965456),
      (255, 12259965423053338886643919801470980977742530596527145488),
      (183, 1096126228019777143584268507508792617619058328080),
      (65, 1096126228019777143584268507471899129471639224848),
      (159, 365375409354325684482426091113757619643672953360),
      (9, 365375409332725729550921208179070754914117353488),
      (4, 365375409354325684482426091113757619643672952832),
      (124, 365375409333058036549867437147296706679187439616),
      (118, 365375409332725729550921208179070754914117353472), (158, 134217744)]
  | .AssertStatement => [
      (103, 57896044618658097711846792327440091118300229137180581620721188942958412431872),
      (21, 57896044618658097711846792327440091118300229137180581620721188942958410334720),
      (102, 57896044618658097711846792327440091118300229132109979219808271336971597513216),
      (255, 61299823096137191665236799289697200079479333015032693248),
      (183, 49039858769210080798370023072494726610529420037563875840),
      (64, 49039858769210080798370023072494726592082675963854324224),
      (9, 49039858769210080798370023072494726592082675963854323712),
      (42, 49039858769210080798370023072494726592082671565807812608),
      (185, 1461501637330902918203684832716283019655932542976)]
  | .Asterisk => [(102, 57896044618658097711797752469037683694548890753400968870285560717732516725264),
      (255, 12259964693729767913898420580686850556768713775951905296),
      (183, 366802657047031644363484377087818800798483087888),
      (62, 366802657047031644363484377083207114780055699984),
      (150, 365375409354325684482426091118369305662100341264),
      (9, 365375409332725729550921208179070754914117353488),
      (4, 365375409354325684482426091113757619643672952832),
      (124, 365375409333058036549867437147296706679187439616),
      (118, 365375409332725729550921208179070754914117353472), (158, 134217744)]
  | .BasePipeOperator => [
      (102, 57896044618658097711797752468670881037501859109671309793348750105829804343296),
      (255, 12259964326927110866866776851027773619958101873239523328), (183, 633825300151008188895770705920),
      (99, 36893488147419103232)]
  | .BinaryOperator => [(104, 57896044618658110573579304057339284589343460624742528425176260391247932293648),
      (102, 57896044618658110573579304057339284589343377542922189467021286297319851950608),
      (116, 12861781551588668403551841518433884704973823544380385818313232),
      (255, 12861793811552995330662708385210101907447292494293363287130640),
      (183, 12861781551588668403551841518433884704973823544380385818313232),
      (141, 12861781551588668400764248368617556812281858760299340630065680),
      (154, 12861781551588645564801165073259459879706347568377158506119696),
      (9, 12861781551588645564801143473304528374823412881512428950519824),
      (4, 12861781551588645564801143473304528374823412881512428950519808),
      (124, 12861781551588645564801143805611527321052381107464194020605952),
      (118, 12861781551588645564801143473304528374823412881512428950519808),
      (72, 12861781551588645564801143473304528374818690515029559305306112),
      (158, 12861781551588280189391810747574977453615233810757514967384080),
      (27, 12861781551588280189391810747574977453615233810757514833166336),
      (203, 6277197516723360465446734575227554641066564767216622895104),
      (107, 6277197516723360465446734412968277811853201375638612606976),
      (137, 6277197516723360291222162711707061347818765762151298629632),
      (192, 95781336679701610945152019888224964209322752588382208),
      (176, 365375409332725729550921208179070754914117353472)]
  | .BeginStatement => [(103, 57896044618658097711847558949354943219440555370837473950672245982401843429376),
      (21, 57896044618658097711847558949354943219440555370837473950672245982401841332224),
      (102, 57896044618658097711847558949354943219440555365766871549759328376415028510720),
      (255, 62066445010989292805563032946589530030536372458463690752),
      (183, 49806480684062181938696256729387056561586459480994873344),
      (168, 49806106539643025227549196586069881193133427562263871488),
      (63, 49806106539643025227549196586069881183910055525409095680),
      (179, 49039858769210080798370023072494726592100685964317294592),
      (54, 49039858769210080798370023072494726592082671565807812608),
      (185, 1461501637330902918203684832716283019655932542976)]
  | .BetweenOperator => [
      (104, 57896044618658110573579304057453461617166787598899298610767435921113363776080),
      (116, 57896044618658110573579304057453461617166704522149562053525379433172096254544),
      (102, 57896044618658110573579304057453461617166704517078959652612461827185283433040),
      (255, 12861793811553109507690531712184258677632883669823228718613072),
      (183, 12861781551588782580579664845408041475159414719910251249795664),
      (156, 12861781551588691236727331663975653744857369952221522754011728),
      (6, 12861781551588691236727331663975653744857369952221522754011664),
      (155, 12861781551588645564801165073259459879706347568377158506119696),
      (9, 12861781551588645564801143473304528374823412881512428950519824),
      (4, 12861781551588645564801143473304528374823412881512428950519808),
      (124, 12861781551588645564801143805611527321052381107464194020605952),
      (118, 12861781551588645564801143473304528374823412881512428950519808),
      (72, 12861781551588645564801143473304528374818690515029559305306112),
      (158, 12861781551588280189391810747574977453615233810757514967384080),
      (27, 12861781551588280189391810747574977453615233810757514833166336),
      (203, 6277197516723360465446734575227554641066564767216622895104),
      (107, 6277197516723360465446734412968277811853201375638612606976),
      (137, 6277197516723360291222162711707061347818765762151298629632),
      (192, 95781336679701610945152019888224964209322752588382208),
      (176, 365375409332725729550921208179070754914117353472)]
  | .BooleanLiteral => [(102, 57896044618658097711797752469059092409939480151616843159822691458759830536720),
      (255, 12259964715138483304487818796561140093899454803265716752),
      (183, 388211372437621042579358666624949541825796899344),
      (9, 388211372416021087647853783690262677096241299472),
      (4, 388211372437621042579358666624949541825796898816),
      (124, 388211372416353394646800012658488628861311385600),
      (118, 388211372416021087647853783690262677096241299456),
      (154, 365375409354325684482426091113757619643672953360),
      (158, 22835963083295358096932575511191922182258163728),
      (27, 22835963083295358096932575511191922182123945984)]
  | .BreakContinueStatement => [
      (103, 57896044618658097711846792327440091118300229138448232220930971595983359574016),
      (21, 57896044618658097711846792327440091118300229138448232220930971595983357476864),
      (102, 57896044618658097711846792327440091118300229133377629820018053989996544655360),
      (255, 61299823096137191665236800557347800289261986039979835392),
      (183, 49039858769210080798370024340145326820312073062511017984),
      (100, 49039858769210080798370023072494726592082671565807812608),
      (185, 1461501637330902918203684832716283019655932542976)]
  | .CallingFunction => [(77, 57896044618658110573579304058047196657715201576585817523532447377826858926736),
      (102, 57896044618658110573579304058047196657715201571515215122619529771840046105232),
      (255, 12861793811553703242731080209238694933102890737767883481285264),
      (183, 12861781551589376315620213342462477730629421787854906012467856),
      (45, 12861781551589376315620213342462477730629421787819721640379024),
      (7, 12861781551589376315620213342462477730629421787819721640378896),
      (88, 12861781551589376315620213342462477421144411966474652915597840),
      (125, 12861781551589376315620170807166612303836479044648723944571408),
      (106, 12861781551589376315620170807085482665421872362952934939427344),
      (82, 12861781551589376315620170807085482660586169084494418240602640),
      (159, 12861781551588645564801505355626380818169810942984590274331152),
      (128, 12861781551588645564801165073259459879706347568377158506119696),
      (9, 12861781551588645564801143473304528374823412881512428950519824),
      (4, 12861781551588645564801143473304528374823412881512428950519808),
      (124, 12861781551588645564801143805611527321052381107464194020605952),
      (118, 12861781551588645564801143473304528374823412881512428950519808),
      (72, 12861781551588645564801143473304528374818690515029559305306112),
      (158, 12861781551588280189391810747574977453615233810757514967384080),
      (27, 12861781551588280189391810747574977453615233810757514833166336),
      (203, 6277197516723360465446734575227554641066564767216622895104),
      (107, 6277197516723360465446734412968277811853201375638612606976),
      (137, 6277197516723360291222162711707061347818765762151298629632),
      (192, 95781336679701610945152019888224964209322752588382208),
      (176, 365375409332725729550921208179070754914117353472)]
  | .CallingTableFunction => [
      (77, 57896044618658110573579304057681821248382475847034896315353376622912741573264),
      (102, 57896044618658110573579304057681821248382475841964293914440459016925928751760),
      (255, 12861793811553337867321747483509144011894711667012969363931792),
      (183, 12861781551589010940210880616732926809421242717099991895114384),
      (45, 12861781551589010940210880616732926809421242717064807523025552),
      (7, 12861781551589010940210880616732926809421242717064807523025424),
      (88, 12861781551589010940210880616732926499936232895719738798244368),
      (125, 12861781551589010940210838081437061382628299973893809827217936),
      (106, 12861781551589010940210838081355931744213693292198020822073872),
      (82, 12861781551589010940210838081355931739377990013739504123249168),
      (159, 12861781551588280189392172629896829896961631872229676156977680),
      (128, 12861781551588280189391832347529908958498168497622244388766224),
      (124, 12861781551588280189391811079881976399844202036709279903253008),
      (118, 12861781551588280189391810747574977453615233810757514833166864),
      (9, 12861781551588280189391810747574977453615233810757514833166352),
      (4, 12861781551588280189391810747574977453615233810757514833166336),
      (72, 12861781551588280189391810747574977453610511444274645187952640),
      (203, 6277197516357985056114008845676633432887494012302505541632),
      (107, 6277197516357985056114008683417356603674130620724495253504),
      (137, 6277197516357984881889436982156140139639695007237181276160),
      (192, 95780971304292278219422468967016785138567838471028736)]
  | .CallingUnnest => [(77, 57896044618658114994237396365691938899239390151852646425920466369752688764880),
      (190, 57896044618658114992668120931845268708280442796050729973010604960465326974928),
      (201, 57896044618658111780361307847711387815315205469527441532630206255995665000400),
      (104, 57896044618658111780361307847711387815315205449245031928978535832048413714384),
      (112, 57896044618658111780361307847711387815315200256948173394150907301552084494288),
      (102, 57896044618658111778792032413864717624356169819325917680854616894679348684752),
      (116, 17282439643897021057861737447940712413522031807386771970336720),
      (255, 14067006539909520763697721177486505635661125824890722783864784),
      (183, 14066994279945193836586854310710288433187656874977745315047376),
      (44, 14068563555379040506777813346355419354638519546715482632497104),
      (45, 17282439643897021057861737447940712413370916079899758951409616),
      (7, 17282439643897021057861737531037744559531809806811647470217040),
      (46, 14068563555379040506777813341142840086500040247690670307813328),
      (10, 14068563555379040506777813346355419354638519546645113888318416),
      (13, 14068563555379040506777813341142840086500040247708262493849552),
      (33, 14068563555379040506777813341142840086500040247708253903923152),
      (62, 17282439643897021057861737531037744559682920922612642061756368),
      (64, 14068563555379040506777813346355419354638501099989001108989904),
      (8, 17282439643897021057861737531037744559682907087554586779592400),
      (37, 17282439643897021057861737531037744559682907087554449340639184),
      (54, 17282439643897021057861737531037744559682907069540188270110416),
      (65, 14066994279945193836586854398999617438034457064295850460586960),
      (75, 14068563555379040506777813263258387208439809994346936416609232),
      (88, 17282439643897021057861737531037744250046799985466578745435984),
      (141, 17282439643897021055074144298124384520830067023305726782089168),
      (150, 17282439643897019630614044825077863501396956084803524106397648),
      (154, 14068563555379017668027136812891665524637543283318943790401488),
      (156, 17282439643896929714009404266508324683219987039698043474552784),
      (6, 17282439643896929714009404266508324683219987039698043474552720),
      (155, 17282439643896884042083237675792130818068964655853679226660752),
      (160, 14068563555377556169177399148058836327626621954623215801214928),
      (167, 14068563555191968297199457772825347696050835320217115453040592),
      (181, 17282436578905939326084020814343690259064539850076204973434832),
      (182, 17282430448923775862528587380955581657827805375119716239026128),
      (198, 13666829044314292937892322823270128703970152972848311098680272),
      (80, 13666829044314292937892322823270128702761227153233681923974096),
      (82, 13666829044314292937892280287893133632566858722421365505270608),
      (140, 13666829044314292936498526248361964751579541482734642631025616),
      (159, 14066994279757368040226707543255069524656864956455504555550544),
      (199, 12863360022184797798727545202191383450318439985843246213374928),
      (125, 12863360021996972002367398341335668321656348656282813872472912),
      (106, 12863360021996972002367398341254538683241741974587024867328848),
      (128, 17282439643896290307042689261834726708608735587369084335957840),
      (124, 12861781551588280189391811079881976399844202036709279903253008),
      (118, 12861781551588280189391810747574977453615233810757514833166864),
      (9, 12861781551588280189391810747574977453615233810757514833166352),
      (4, 12861781551588280189391810747574977453615233810757514833166336),
      (72, 12861781551588280189391810747574977453610511444274645187952640),
      (203, 6277197516357985056114008845676633432887494012302505541632),
      (107, 6277197516357985056114008683417356603674130620724495253504),
      (137, 6277197516357984881889436982156140139639695007237181276160),
      (192, 95780971304292278219422468967016785138567838471028736)]
  | .CallStatement => [(103, 57896044618658097711846792327440091815198516591262554793693938214747953430528),
      (21, 57896044618658097711846792327440091815198516591262554793693938214747951333376),
      (102, 57896044618658097711846792327440091815198516586191952392781020608761138511872),
      (255, 61299823096137888563524253371670373052228604804573691904),
      (183, 49039858769210777696657477154467899583278691827104874496),
      (139, 49039858769210080798370023072494726592082671565807812608),
      (185, 1461501637330902918203684832716283019655932542976)]
  | .Constraint => [(32, 57896044618658097711797752468670970240482653236917739772361137816351618891776),
      (87, 57896044618658097711797752468670970240482653236917585029856227143817256501248),
      (84, 57896044618658097711797752468670970240482653236917565687043113309750461202432),
      (102, 57896044618658097711797752468670970240482653231846963286130195703763648380928),
      (255, 12259964327016313847660899026681266401403699807083560960),
      (183, 89202980794122809478792932453786829614743552),
      (98, 89202980794122492566142875396436455438942208), (26, 89202980794122492566142875396436455371833344),
      (146, 2305843009347911680), (61, 134217728)]
  | .CaseExpr => [(102, 57896044618658097711797752469036256446856184793519910584329964295049925624592),
      (255, 12259964692302520221192460699628564601172291093360804624),
      (183, 365375409354325684482426091132222378115891987216),
      (64, 365375409354325684482426091113775634042182435600),
      (8, 365375409354325684482426091113775634042182435344),
      (54, 365375409354325684482426091113757619643672953360),
      (9, 365375409332725729550921208179070754914117353488),
      (4, 365375409354325684482426091113757619643672952832),
      (124, 365375409333058036549867437147296706679187439616),
      (118, 365375409332725729550921208179070754914117353472), (158, 134217744)]
  | .CaseExprArm => [(102, 57896044618658097711798518716447022972701862122075292791685796011114365976576),
      (255, 13026212103069046066869789255010771957004007157801156608),
      (183, 766247776141935200003013037808298488054094180332339200),
      (64, 766247776141935200003013037808298469607350106622787584),
      (179, 5708990770823839524233143877797980545530986496)]
  | .CaseStatement => [(103, 57896044618658097711846792327440091118300229137180581620721224967357384884480),
      (21, 57896044618658097711846792327440091118300229137180581620721224967357382787328),
      (102, 57896044618658097711846792327440091118300229132109979219808307361370569965824),
      (255, 61299823096137191665236799289697200079515357414005145856),
      (183, 49039858769210080798370023072494726610565444436536328448),
      (64, 49039858769210080798370023072494726592118700362826776832),
      (8, 49039858769210080798370023072494726592118700362826776576),
      (55, 49039858769210080798370023072494726592082671565807812608),
      (185, 1461501637330902918203684832716283019655932542976)]
  | .CaseStatementArm => [
      (102, 57896044618658097711798519090585733138642185342694376823176451062487565991936),
      (255, 13026586241779212007193009874094803447659058531001171968),
      (183, 766621914852101140326233656892329978709145553532354560),
      (64, 766621914852101140326233656892329960262401479822802944),
      (179, 374144419156711147060143317175368453031918731001856)]
  | .CastArgument => [(16, 57896044618658097711797752468670881037501859114108086903555392488660137017344),
      (102, 57896044618658097711797752468670881037501859109037484502642474882673324195840),
      (255, 12259964326927110866866776217202482913682878716759375872), (183, 9444732965739290558464),
      (17, 9444732965739290427392)]
  | .CreateFunctionStatement => [
      (103, 57896044618658097812280815190145209214163342082364674921640846970503938703880),
      (21, 57896044618658097812280815190145209214163342082364674921640846970503936606728),
      (102, 57896044618658097812280815190145209214163342077294072520727929364517123785224),
      (255, 100495322685801255287528349744473790500999137360560558965256),
      (183, 100483062721474328176661482968256588027530187447583090147848),
      (123, 100483062721474328176650849144290308700546956991100847391240),
      (178, 100482679597589111704436259557533521123251052306320301490696),
      (173, 100482667624967698689679553632947371511460555284920909431304),
      (3, 100482667624967698689679553632947371511460555284920909431296),
      (196, 49039858780806468306922861624708853822868173496357224960),
      (87, 49039858780806468306922861624554111317957500961994834432),
      (84, 49039858780806468306922861624534768504843666895199535616),
      (79, 49039858780806468306922861624534164041933859580612182528),
      (153, 49039858769388486765275182576067876286337898489550209536),
      (43, 49039858769388486765275182576067876286337889693457187328),
      (101, 49039858769388486765275180040766675829879086700050776576),
      (147, 49039858769210080803686937590935590540156711597502366208),
      (30, 49039858769210080803686935055634390083697899806929191424),
      (122, 49039858769210080798370023072494726592082671565807813120),
      (9, 49039858769388486759958268057627012338263858457855655936),
      (185, 1461501637330902918203684832716283019655932542976)]
  | .CreateIndexStatement => [
      (103, 57896044618658097812280468732401473723028293432549885898733084891547632140288),
      (21, 57896044618658097812280468732401473723028293432549885898733084891547630043136),
      (102, 57896044618658097812280468732401473723028293427479283497820167285560817221632),
      (255, 100494976228057519796393301094659001478091375281604252401664),
      (183, 100482716263730592685526434318441799004622425368626783584256),
      (123, 100482716263730592685515800494475519677639194912144540827648),
      (196, 49088497543700464143169723152857020001507800719988621312),
      (87, 49088497543700464143169723152702277496597128185626230784),
      (84, 49088497543700464143169723152682934683483294118830931968),
      (120, 49088497543700464141840495156898018810579487058550587392),
      (175, 49040607058048405115016796812299571648591401460982349824),
      (23, 49040607058048405115016796812299571648591401460973961216),
      (169, 49039858769210091692722676525665220911685337623511957504),
      (133, 49039858769210080803686935055634390083697899806929190912),
      (122, 49039858769210080798370023072494726592082671565807812608),
      (185, 1461501637330902918203684832716283019655932542976)]
  | .CreateModelStatement => [
      (103, 57896044618658097813261217239781341765542481435596111037300580392421113724928),
      (21, 57896044618658097813261217239781341765542481435596111037300580392421111627776),
      (102, 57896044618658097813261217239781341765542481430525508636387662786434298806272),
      (255, 101475724735437387838907489097705226616658870782477733986304),
      (183, 101463464771110460728040622321488024143189920869500265168896),
      (123, 101463464771110460728029988497521744816206690413018022412288),
      (196, 1029837004923568506657357726199082158569003301593470205952),
      (87, 1029837004923568506657357726198927416064092629059107815424),
      (84, 1029837004923568506657357726198908073250978794992312516608),
      (189, 245199288000233411177884048297949771238184364434308202496),
      (93, 245199288000233411177884048288046250923901322235115208704),
      (127, 245199288000233411007742864827577019192214018519231102976),
      (147, 245199288000055005046154619842444733446032831627183259648),
      (122, 245199288000055005040837707859305069954417603386061881344),
      (143, 245199288000043854668238442547734302095281279205308891136),
      (187, 49039858769221231170969288384065494451218995746560802816),
      (185, 1461501637330902918203684832716283019655932542976)]
  | .CreateProcedureStatement => [
      (103, 57896044618658104240032597316660295085892753541710207835622656730969269076480),
      (21, 57896044618658104240032597316660295085892753541710207835622656730969266979328),
      (102, 57896044618658104240032597316660295085892753536639605434709739124982454157824),
      (255, 6528247104812316341159257761203819323414980947121025889337856),
      (183, 6528234844847989414048390894427602120941511997208048420520448),
      (123, 6528234844847989414048380260603635841614528766751566177763840),
      (196, 6427801217081802521827007629832313178956891079640141625557504),
      (87, 6427801217081802521827007629832313024214386168967607263166976),
      (84, 6427801217081802521827007629832313004871573055133540467868160),
      (79, 6427801217081802521827007629832313004267110145326225880515072),
      (66, 6427801217081802521827007629832313004267036358349931042308608),
      (202, 49040045841419659159260467662594178224383218759701103104),
      (122, 49040045841419659153943555679454514732767990518579724800),
      (101, 49040045841419659153943553144153314276309187525173314048),
      (9, 49040045841419659153943553144153314276309187525173313536),
      (167, 49039858769210080798370023072494726592082671565807813120),
      (185, 1461501637330902918203684832716283019655932542976)]
  | .CreateReservationStatement => [
      (103, 57896044618658097812280420093626983339678176820724087772187951380999757103616),
      (21, 57896044618658097812280420093626983339678176820724087772187951380999755006464),
      (102, 57896044618658097812280420093626983339678176815653485371275033775012942184960),
      (255, 100494927589283029413043184482833203351546241771056377364992),
      (183, 100482667624956102302176317706616000878077291858078908547584),
      (196, 49039858769210080803686935293338220439604746654356341248),
      (84, 49039858769210080803686935293318877626490912587561042432),
      (9, 49039858769210080803686935293318877626490912587561041920),
      (96, 49039858769210080803686935214090715112226574994017091584),
      (97, 49039858769210080803686935055634390083697899806929190912),
      (122, 49039858769210080798370023310179214134875684346439664128),
      (185, 1461501637330902918203684832716283019655932542976)]
  | .CreateRowAccessPolicyStatement => [
      (103, 57896044618658097837391892026255438172744697347350449192703293856530099601408),
      (21, 57896044618658097837391892026255438172744697347350449192703293856530097504256),
      (102, 57896044618658097837391892026255438172744697342279846791790376250543284682752),
      (255, 125606399521911484246109705009459564772061584246586719862784),
      (183, 125594139557584557135242838233242362298592634333609251045376),
      (123, 125594139557584557135232204409276082971609403877127008288768),
      (196, 25160511791397664913859573637953420313971716765702456082432),
      (87, 25160511791397664913859573637953265571466806093168093691904),
      (84, 25160511791397664913859573637953246228653692259101298393088),
      (120, 25160511791397664913858244409957461312780788452041018048512),
      (78, 25160511791397664913858244409957461010549333548383724371968),
      (181, 25157446800315933136141527715903160392182096070139357167616),
      (70, 25157446800315933136141527715903160391001504449421945864192),
      (194, 49039858769210080798370023072494726592082671565807812608),
      (185, 1461501637330902918203684832716283019655932542976)]
  | .CreateSchemaStatement => [
      (103, 57896044618658104240032597129588085507526546185136968116035831149319178682368),
      (21, 57896044618658104240032597129588085507526546185136968116035831149319176585216),
      (102, 57896044618658104240032597129588085507526546180066365715122913543332363763712),
      (255, 6528247104625244131580891553847246083695394121539375798943744),
      (183, 6528234844660917204470024687071028881221925171626398330126336),
      (66, 6528234844660917204470024687071028881221851384650103491919872),
      (196, 6427801216894730312248652056299706218564213697538678939713536),
      (87, 6427801216894730312248652056299706063821708786866144577323008),
      (84, 6427801216894730312248652056299706044478895673032077782024192),
      (40, 6427801216894730312248652056299706044478895673030978270396416),
      (202, 49039858769210080803686935055634390083697899806929190912),
      (122, 49039858769210080798370023072494726592082671565807812608),
      (185, 1461501637330902918203684832716283019655932542976)]
  | .CreateTableStatement => [
      (103, 57896044618658129951041688432393749957975952873384961398884987572720832872960),
      (21, 57896044618658129951041688432393749957975952873384961398884987572720830775808),
      (102, 57896044618658129951041688432393749957975952868314358997972069966734017954304),
      (255, 32239256195928049796031340960535494076978243277962777453134336),
      (183, 32239243935963722868920474093759276874504774328049799984316928),
      (123, 32239243935963722868920463459935310595177791097593317741560320),
      (178, 32239243552839837652448248870348553807600495192908537195659776),
      (66, 32239243552839837652448248870348553807600421405932242357453312),
      (163, 32239243552828145639349601647002924328938691141774994897109504),
      (196, 32138809925061958747128229016231601666281053454663570344903168),
      (87, 32138809925061958747128229016231601511538548543991035982512640),
      (84, 32138809925061958747128229016231601492195735430156969187213824),
      (105, 32138809925061958747128229016191036672988432089309074684641792),
      (164, 32138809925038574720930934569499777715664971560994579763954176),
      (25, 32138809925038574720930934569499777715664971560994579730399744),
      (40, 32138809925038574720930934569499777715664971560993480218771968),
      (133, 32138809925038574720920045533758307684834143573555663636005376),
      (19, 32138809925038574720920045533758307684834143573555663635481088),
      (202, 25711057748002613618752197164393657274745331598424492294275584),
      (204, 49039858769210080803686935055634390083697899806929453568),
      (18, 49039858769210080803686935055634390083697899806929191424),
      (122, 49039858769210080798370023072494726592082671565807813120),
      (9, 49039858769210080798370023072494726592082671565807812608),
      (185, 1461501637330902918203684832716283019655932542976)]
  | .CreateViewStatement => [
      (103, 57896044618658097812280420093626983350577847034959975501814740501364371620352),
      (21, 57896044618658097812280420093626983350577847034959975501814740501364369523200),
      (102, 57896044618658097812280420093626983350577847029889373100901822895377556701696),
      (255, 100494927589283029423942854697069091081173030891420991881728),
      (183, 100482667624956102313075987920851888607704080978443523064320),
      (123, 100482667624956102313065354096885609280720850521961280307712),
      (109, 100482667624956102313065353447848501963867396955649239155200),
      (196, 49039858769210091692722676525839306229709844224686948864),
      (87, 49039858769210091692722676525684563724799171690324558336),
      (84, 49039858769210091692722676525665220911685337623529259520),
      (24, 49039858769210091692722676525665220911685337623512482304),
      (133, 49039858769210080803686935055634390083697899806929715712),
      (19, 49039858769210080803686935055634390083697899806929191424),
      (122, 49039858769210080798370023072494726592082671565807813120),
      (9, 49039858769210080798370023072494726592082671565807812608),
      (185, 1461501637330902918203684832716283019655932542976)]
  | .Comment => [(102, 57896044618658097711797752468670881037501859109037484493197741916934033637376),
      (255, 12259964326927110866866776217202473468949912977468817408)]
  | .DeclareStatement => [
      (103, 57896044618658097762063606210533537228986544522841951635147813418882278883328),
      (21, 57896044618658097762063606210533537228986544522841951635147813418882276786176),
      (102, 57896044618658097762063606210533537228986544517771349234234895812895463964672),
      (255, 50278113706189583302351552184951067214506103808938899144704),
      (183, 50265853741862656191484685408733864741037153895961430327296),
      (85, 50265853741862656191484685408733826055410926227827839729664),
      (195, 49039858769210080798370023072494726592082672115563626496),
      (39, 49039858769210080798370023072494726592082671565807812608),
      (185, 1461501637330902918203684832716283019655932542976)]
  | .DeleteStatement => [
      (103, 57896044618658098113581327337430486033304164071643531512613416545940811022336),
      (21, 57896044618658098113581327337430486033304164071643531512613416545940808925184),
      (102, 57896044618658098113581327337430486033304164066572929111700498939953996103680),
      (255, 401795834833086532106669171733752647091971706935997431283712),
      (183, 401783574868759604995802304957535444618502757023019962466304),
      (75, 401783574868759604995802304957535444580723825160062800756736),
      (174, 401783550923516778966288893108363145357142831117264016637952),
      (198, 49039858769210080798370023072494726592082671565807812608),
      (185, 1461501637330902918203684832716283019655932542976)]
  | .DifferentialPrivacyClause => [
      (102, 57896044618658097711797752468670881037507176021020624156689357162767341060096),
      (255, 12259964326927110872183688200342136960565158810776240128),
      (183, 5316911983139663491615245833307422720), (44, 5316911983139663491615228241121378304)]
  | .DotOperator => [(104, 57896044618658110573579304057339281801750227731664899175969419822261476524560),
      (102, 57896044618658110573579304057339281801750227726594296775056502216274663703056),
      (255, 12861793811552995327875115235393774014755327710212318098883088),
      (183, 12861781551588668400764248368617556812281858760299340630065680),
      (154, 12861781551588645564801165073259459879706347568377158506119696),
      (9, 12861781551588645564801143473304528374823412881512428950519824),
      (4, 12861781551588645564801143473304528374823412881512428950519808),
      (124, 12861781551588645564801143805611527321052381107464194020605952),
      (118, 12861781551588645564801143473304528374823412881512428950519808),
      (72, 12861781551588645564801143473304528374818690515029559305306112),
      (158, 12861781551588280189391810747574977453615233810757514967384080),
      (27, 12861781551588280189391810747574977453615233810757514833166336),
      (203, 6277197516723360465446734575227554641066564767216622895104),
      (107, 6277197516723360465446734412968277811853201375638612606976),
      (137, 6277197516723360291222162711707061347818765762151298629632),
      (192, 95781336679701610945152019888224964209322752588382208),
      (176, 365375409332725729550921208179070754914117353472)]
  | .DropStatement => [(103, 57896044618658097812280432066248396354430895710122382836996639847311736864768),
      (21, 57896044618658097812280432066248396354430895710122382836996639847311734767616),
      (102, 57896044618658097812280432066248396354430895705051780436083722241324921946112),
      (255, 100494939561904442427795903372231498416354930237368357126144),
      (183, 100482679597577515316929036596014295942885980324390888308736),
      (66, 100482679597577515316929036596014295942812193348096050102272),
      (109, 100482679597577515316929035946977188626032526758078847156224),
      (173, 100482667624956102302172330671428146331095483302991496249344),
      (196, 49039858769210080799699251068376356530555648960064684032),
      (86, 49039858769210080799699251068298985278100312692883488768),
      (84, 49039858769210080799699251068279642464986478626088189952),
      (15, 49039858769210080799699251068279642464986478626088157184),
      (120, 49039858769210080798370023072494726592082671565807812608),
      (185, 1461501637330902918203684832716283019655932542976)]
  | .DropRowAccessPolicyStatement => [
      (103, 57896044618658097812280420093626983339674189136499125908278902283305465413632),
      (21, 57896044618658097812280420093626983339674189136499125908278902283305463316480),
      (102, 57896044618658097812280420093626983339674189131428523507365984677318650494976),
      (255, 100494927589283029413039196798608241487637192673362085675008),
      (183, 100482667624956102302172330022391039014168242760384616857600),
      (196, 49039858769210080799699251068376356530555648960064651264),
      (86, 49039858769210080799699251068298985278100312692883456000),
      (84, 49039858769210080799699251068279642464986478626088157184),
      (120, 49039858769210080798370023072494726592082671565807812608),
      (185, 1461501637330902918203684832716283019655932542976)]
  | .ElseIfClause => [(102, 57896044618658097711798518716441313981931038282551059647789551286495393873920),
      (255, 13026212097360055296045949730777628060759282538829053952),
      (183, 766247770432944429179173513575154591809369561360236544),
      (28, 766247770432944429179173513575154591809369561091801088)]
  | .EOF => [(102, 57896044618658097711797752468670881037501859109037484493197741916934033637376),
      (255, 12259964326927110866866776217202473468949912977468817408)]
  | .EmptyStruct => [(102, 57896044618658097711797752469767007265521636252621753000669641046405672862224),
      (255, 12259965423053338886643919801470980940849042449108042256),
      (183, 1096126228019777143584268507471899129471639224848),
      (159, 365375409354325684482426091113757619643672953360),
      (9, 365375409332725729550921208179070754914117353488),
      (4, 365375409354325684482426091113757619643672952832),
      (124, 365375409333058036549867437147296706679187439616),
      (118, 365375409332725729550921208179070754914117353472), (158, 134217744)]
  | .ExecuteStatement => [
      (103, 57896044618658097736955199315754866568232280212549587942681429375868471345152),
      (21, 57896044618658097736955199315754866568232280212549587942681429375868469248000),
      (102, 57896044618658097736955199315754866568232280207478985541768511769881656426496),
      (255, 25169706811410912641597287874658703522039719765925091606528),
      (183, 25157446847083985530730421098441501048570769852947622789120),
      (89, 25157446847083985530730421098440882078551127162810173227008),
      (165, 25157446800315933136141527715922967431630070533820331851776),
      (94, 25157446800315933136141527715903160391001504449421945864192),
      (194, 49039858769210080798370023072494726592082671565807812608),
      (185, 1461501637330902918203684832716283019655932542976)]
  | .ExportDataStatement => [
      (103, 57896044618658104139598969363401193286153915413814131373006332553933478691328),
      (21, 57896044618658104139598969363401193286153915413814131373006332553933476594176),
      (102, 57896044618658104139598969363401193286153915408743528972093414947946663772672),
      (255, 6427813476859057239359518923075923246952364622943990098952704),
      (183, 6427801216894730312248652056299706044478895673031012630135296),
      (35, 6427801216894730312248652056299706044478895673030978270396928),
      (202, 49039858769210080803686935055634390083697899806929191424),
      (122, 49039858769210080798370023072494726592082671565807813120),
      (9, 49039858769210080798370023072494726592082671565807812608),
      (185, 1461501637330902918203684832716283019655932542976)]
  | .ExportModelStatement => [
      (103, 57896044618658097812280420093626983339678176820486403284645158368219125252096),
      (21, 57896044618658097812280420093626983339678176820486403284645158368219123154944),
      (102, 57896044618658097812280420093626983339678176815415800883732240762232310333440),
      (255, 100494927589283029413043184482595518864003448758275745513472),
      (183, 100482667624956102302176317706378316390534498845298276696064),
      (196, 49039858769210080803686935055653732896811733873724489728),
      (84, 49039858769210080803686935055634390083697899806929190912),
      (122, 49039858769210080798370023072494726592082671565807812608),
      (185, 1461501637330902918203684832716283019655932542976)]
  | .ExtractArgument => [(67, 57896044618658097711799284964211746926360217461135237203589426167222382888960),
      (102, 57896044618658097711799284964211746926360217456064634802676508561235570067456),
      (255, 13792459867792999725225123244352782947716557279005247488),
      (183, 1532495540865888858358347027150309478766644301536430080),
      (68, 1532495540865888858358347027150309183618739122183604224),
      (11, 1532495540865888858358347027150309183618739122183602176)]
  | .ForSystemTimeAsOfClause => [
      (102, 57896044618658097711797758454981587544880212071330559299111437171707439218688),
      (255, 12265950637633618245219738510277279382645167750874398720),
      (183, 5986310706507378352962293074805913695254773405581312), (172, 18446744073709551616)]
  | .ForStatement => [(103, 57896044618658097711846792327440091118300229137181838903555213607159877074944),
      (21, 57896044618658097711846792327440091118300229137181838903555213607159874977792),
      (102, 57896044618658097711846792327440091118300229132111236502642296001173062156288),
      (255, 61299823096137191665236799290954482913503997216497336320),
      (183, 49039858769210080798370023073752009444554084239028518912),
      (84, 49039858769210080798370023073732666631440250172233220096),
      (90, 49039858769210080798370023072494726592154869897334095872),
      (47, 49039858769210080798370023072494726592154729159845740544),
      (56, 49039858769210080798370023072494726592082671565807812608),
      (185, 1461501637330902918203684832716283019655932542976)]
  | .FromStatement => [(103, 57896044618658113787504432434066207003389487078965666371474744881304542642704),
      (21, 57896044618658113787504432434066207003389487078965666371474744881304540545552),
      (201, 57896044618658110573628343916085655919465302396640461327068757315718869942800),
      (102, 57896044618658110573628343916085655919465302391569858926155839709732057121296),
      (255, 12861842851411741701992830310058749576906427047705775492301328),
      (183, 12861830591447414774881963443282532374432958097792798023483920),
      (64, 12861830591447414774881963443282532374432939651048724313932304),
      (160, 12861781551588645564801165073259459879706347568377158506119696),
      (9, 12861830591445953273244610940419538389519114516376312453529616),
      (4, 12861830591445953273244632540374469894402049203241042009128960),
      (72, 12861830591445953273244632540374469894397326836758172363915264),
      (124, 12861830591445953273244611272726537335748082742328077523615744),
      (118, 12861830591445953273244610940419538389519114516376312453529600),
      (158, 12861830591445587897835278214689987468310935445621398470393872),
      (27, 12861830591445587897835278214689987468310935445621398336176128),
      (185, 12861781551588645564801165073259459879706347568377158506119696),
      (203, 6326237374031068908935801645169074219702886495829681504256),
      (107, 6326237374031068908935801482909797390489523104251671216128),
      (137, 6326237374031068734711229781648580926455087490764357238784),
      (192, 49135638644388145100012221961407803600531051365646991360),
      (176, 49039857673083852821792799492440786815392483527175962624)]
  | .FunctionChain => [(104, 57896044618658110573579304057339281801750227731664899175969419822261476524560),
      (102, 57896044618658110573579304057339281801750227726594296775056502216274663703056),
      (255, 12861793811552995327875115235393774014755327710212318098883088),
      (183, 12861781551588668400764248368617556812281858760299340630065680),
      (154, 12861781551588645564801165073259459879706347568377158506119696),
      (9, 12861781551588645564801143473304528374823412881512428950519824),
      (4, 12861781551588645564801143473304528374823412881512428950519808),
      (124, 12861781551588645564801143805611527321052381107464194020605952),
      (118, 12861781551588645564801143473304528374823412881512428950519808),
      (72, 12861781551588645564801143473304528374818690515029559305306112),
      (158, 12861781551588280189391810747574977453615233810757514967384080),
      (27, 12861781551588280189391810747574977453615233810757514833166336),
      (203, 6277197516723360465446734575227554641066564767216622895104),
      (107, 6277197516723360465446734412968277811853201375638612606976),
      (137, 6277197516723360291222162711707061347818765762151298629632),
      (192, 95781336679701610945152019888224964209322752588382208),
      (176, 365375409332725729550921208179070754914117353472)]
  | .GrantStatement => [(103, 57896044618658097711849857318707365096070049843768263673784431681587856277504),
      (21, 57896044618658097711849857318707365096070049843768263673784431681587854180352),
      (102, 57896044618658097711849857318707365096070049838697661272871514075601041358848),
      (255, 64364814363411169435057505877379253142722071644476538880),
      (183, 52104850036484058568190729660176779673772158667007721472),
      (157, 52104849853796353901827864884716175584236781210016153600),
      (120, 52104849853796353900498636888931259711332974149735809024),
      (151, 52104849850941858515086717126814687772433983876970315776),
      (84, 52104849850941858515086717126795344959320149810175016960),
      (181, 49039858769210080798370023072494726592082671565807812608),
      (185, 1461501637330902918203684832716283019655932542976)]
  | .GroupByExprs => [(102, 57896044618658097711797752468670881037501859109037494164641192322114850398208),
      (255, 12259964326927110866866776217212144912400318158285578240), (183, 9671443450405180816760832),
      (13, 9671443450405180816752640), (83, 36893488147419103232)]
  | .GroupedIdentWithOptions => [
      (102, 57896044618658097711797752469401631856167310568139365595182111094895590506496),
      (255, 12259965057677929532318235319083575453319090939025686528),
      (183, 730750818665451459101881101984369177961556869120),
      (85, 730750818665451459101842416358141509827966271488)]
  | .GroupedExpr => [(102, 57896044618658110573579304058047196657332383827599206615921898547994215580176),
      (255, 12861793811553703242730697391494778924596193106544037650760208),
      (183, 12861781551589376315619830524718561722122724156631060181942800),
      (64, 12861781551589376315619830524718561722122705709886986472391184),
      (159, 12861781551588645564801165073259459879706347568377158506119696),
      (9, 12861781551588645564801143473304528374823412881512428950519824),
      (4, 12861781551588645564801165073259459879706347568377158506119168),
      (72, 12861781551588645564801165073259459879701625201894288860905472),
      (124, 12861781551588645564801143805611527321052381107464194020605952),
      (118, 12861781551588645564801143473304528374823412881512428950519808),
      (158, 12861781551588280189391810747574977453615233810757514967384080),
      (27, 12861781551588280189391810747574977453615233810757514833166336),
      (203, 6277197516723360465468334530159059524001251631946178494464),
      (107, 6277197516723360465468334367899782694787888240368168206336),
      (137, 6277197516723360291243762666638566230753452626880854228992),
      (192, 95781336679701632545106951393107898896187482143981568),
      (176, 365375409354325684482426091113757619643672952832)]
  | .GroupedExprs => [(102, 57896044618658097711797752469767007265500036297690248117771847669823536366080),
      (255, 12259965423053338865043964869966098043055665866971546112),
      (183, 1096126227998177188652763624574105752889502728704),
      (65, 1096126227998177188652763624537212264742083625472),
      (159, 365375409332725729550921208179070754914117353984),
      (9, 365375409332725729550921208179070754914117353472), (158, 134217728)]
  | .GroupedPattern => [(102, 57896044618658097711797753965979308526568041774592718934341645305703254982656),
      (255, 12261461635354599933049441772436914612853301746690162688),
      (183, 1497308427489066182665555234441143903388769221345280),
      (135, 1497308427445510039699675111117831953637502890278912),
      (159, 1496577676626844588240573268701473812127674924007424)]
  | .GroupedStatement => [
      (103, 57896044618658113787504432621869167400453047445133923098038269684736141034000),
      (21, 57896044618658113787504432621869167400453047445133923098038269684736138936848),
      (201, 57896044618658110573628344103888616316528862762808718053632282119150468334096),
      (102, 57896044618658110573628344103888616316528862757738115652719364513163655512592),
      (255, 12861842851599544662389893870424917833632990572509207090692624),
      (183, 12861830591635217735279027003648700631159521622596229621875216),
      (167, 12861830591448145525700671430118628972571837396080270256374288),
      (159, 12861830591447414774882005978659527130155479254570442290102800),
      (125, 12861830591447414774881963443363662012847546332744513319076368),
      (106, 12861830591447414774881963443282532374432939651048724313932304),
      (9, 12861830591447414774881941843337742074351830799395968386072592),
      (4, 12861830591447414774881963443292673579234765486260697941671936),
      (72, 12861830591447414774881963443292673579230043119777828296458240),
      (124, 12861830591447414774881942175644741020580799025347733456158720),
      (118, 12861830591447414774881941843337742074351830799395968386072576),
      (158, 12861830591447049399472609117608191153143651728641054402936848),
      (27, 12861830591447049399472609117608191153143651728641054268719104),
      (185, 12861781551590107066438495976177663564539063851396814438662672),
      (160, 12861781551588645564801165073259459879706347568377158506119696),
      (203, 6326237375492570546266704563372759052419169515485614047232),
      (107, 6326237375492570546266704401113482223205806123907603759104),
      (137, 6326237375492570372042132699852265759171370510420289781760),
      (192, 49135640105889782430915140165092636316814071021579534336),
      (176, 49039859134585490152695717696125619531675503183108505600)]
  | .GroupedType => [(102, 57896044618658097713367027903248302047126257923941243513581472287878008537088),
      (255, 1581535398904348120491265591120961493852680283921443717120),
      (183, 1569275434577421009624398814903759020383730370943974899712),
      (190, 730750818665451459101842416358141509827966271488)]
  | .GroupedTypeDeclarationOrConstraints => [
      (102, 57896044618658097711797752469401631856167310568139326909555883427036877815808),
      (255, 12259965057677929532318235319044889827091423080312995840),
      (183, 730750818665451459101842416358141510102844178432),
      (38, 730750818665451459101842416358141509827966271488)]
  | .Keyword => [(102, 57896044618658097711797752468670881037501859109037484493197741916934033637376),
      (255, 12259964326927110866866776217202473468949912977468817408)]
  | .KeywordSequence => [
      (102, 57896044618658097711797752468670881037501900647412352771818770160904667398144),
      (255, 12259964326927110866908314592070752089978156948102578176),
      (183, 41538374868278621028243970633760768)]
  | .KeywordWithExpr => [
      (102, 57896044618658097711797752468670881037501859109037484493216188661007743188992),
      (255, 12259964326927110866866776217202473487396657051178369024), (183, 18446744073709551616)]
  | .KeywordWithExprs => [
      (102, 57896044618658097711797752468670881037501859109037484493234635405081452740608),
      (255, 12259964326927110866866776217202473505843401124887920640), (183, 36893488147419103232)]
  | .KeywordWithType => [
      (102, 57896044618658097713367027902517551228460806464839401097223330778050042265600),
      (255, 1581535398173597301825814132019119077494538774093477445632),
      (183, 1569275433846670190958947355801916604025588861116008628224)]
  | .KeywordWithGroupedXXX => [
      (102, 57896044618658097711797752468670881037501859109037485097660651724248620990464),
      (255, 12259964326927110866866776217203077931859720292056170496), (183, 604462909807314587353088)]
  | .KeywordWithStatement => [
      (102, 57896044618658097711797752655743090615857432639109143080881968432893399138304),
      (255, 12260151399136689222440306288861061153176428936834318336),
      (183, 187072209578355573530071658587684226515959365500928)]
  | .KeywordWithStatements => [
      (102, 57896044618658097711797752842815300194213006169180801668566194948852764639232),
      (255, 12260338471346267578013836360519648837402944896199819264),
      (183, 374144419156711147060143317175368453031918731001856)]
  | .Identifier => [(102, 57896044618658110573579304057339281801750227726594296775056502216274663703056),
      (255, 12861793811552995327875115235393774014755327710212318098883088),
      (183, 12861781551588668400764248368617556812281858760299340630065680),
      (9, 12861781551588668400764226768662625307398924073434611074465808),
      (4, 12861781551588668400764226768662625307398924073434611074465792),
      (124, 12861781551588668400764227100969624253627892299386376144551936),
      (118, 12861781551588668400764226768662625307398924073434611074465792),
      (72, 12861781551588668400764226768662625307394201706951741429252096),
      (154, 12861781551588645564801165073259459879706347568377158506119696),
      (158, 12861781551588303025354894042933074386190745002679697091330064),
      (27, 12861781551588303025354894042933074386190745002679696957112320),
      (203, 6277197516746196428530029933324487216577756689398746841088),
      (107, 6277197516746196428530029771065210387364393297820736552960),
      (137, 6277197516746196254305458069803993923329957684333422575616),
      (192, 95781359515664694240510116820800475401244934712328192),
      (176, 388211372416021087647853783690262677096241299456)]
  | .IdentWithOptions => [
      (104, 57896044618658097711822272397347571222324204936622564080051366499299163635712),
      (102, 57896044618658097711822272397347571222324204931551961679138448893312350814208),
      (255, 36779893003617295689212598731679659409656889355785994240),
      (183, 24519928676690184822345822514477185940706976378317176832),
      (154, 24519928653854221739050464417544610429515054196193230848),
      (184, 22835963088612290362481842654477574370630828032), (122, 134217728)]
  | .IfStatement => [(103, 57896044618658097711847558575210524062729408310694156775294709190034974572544),
      (21, 57896044618658097711847558575210524062729408310694156775294709190034972475392),
      (102, 57896044618658097711847558575210524062729408305623554374381791584048159653888),
      (255, 62066070866570136094415972803272354652999580091594833920),
      (183, 49806106539643025227549196586069881184049667114126016512),
      (28, 49806106539643025227549196586069881184049667113857581056),
      (179, 49039858769210080798370023072494726592240297552765779968),
      (53, 49039858769210080798370023072494726592231290353511038976),
      (52, 49039858769210080798370023072494726592226786753883668480),
      (57, 49039858769210080798370023072494726592082671565807812608),
      (185, 1461501637330902918203684832716283019655932542976)]
  | .InsertStatement => [
      (103, 57896044618658097711846983889382699354407523930588685970293543663474575409152),
      (21, 57896044618658097711846983889382699354407523930588685970293543663474573312000),
      (102, 57896044618658097711846983889382699354407523925518083569380626057487760490496),
      (255, 61491385038745427772531592697801549651834053531195670528),
      (183, 49231420711818316905664816480599076182884140553726853120),
      (94, 49231420711818316905664816460792035554318056155340865536),
      (177, 49039858769210080798370023082398246906365713765067915264),
      (26, 49039858769210080798370023082398246906365713765000806400),
      (93, 49039858769210080798370023072494726592082671565807812608),
      (185, 1461501637330902918203684832716283019655932542976)]
  | .IntervalLiteral => [
      (102, 57896044618658097711806947442281451780006334875682812439431658715521956708880),
      (255, 21454937937497853371342542862530419702866711565391888912),
      (183, 9194973610570742504475766645327946233916798587923071504),
      (64, 9194973610570742504475766645327946215470054514213519888),
      (37, 9194973610570742504475766645327946215470054376774566416),
      (181, 6129982528838964787759072591027327848232576132407362064),
      (182, 365375409354325684482426091113757619643672953360),
      (9, 365375409332725729550921208179070754914117353488),
      (4, 365375409354325684482426091113757619643672952832),
      (124, 365375409333058036549867437147296706679187439616),
      (118, 365375409332725729550921208179070754914117353472), (158, 134217744)]
  | .InOperator => [(104, 57896044618658110573579304057339281801750310808414635733211476310202744046096),
      (116, 57896044618658110573579304057339281801750227731664899175969419822261476524560),
      (102, 57896044618658110573579304057339281801750227726594296775056502216274663703056),
      (255, 12861793811552995327875115235393774014755327710212318098883088),
      (183, 12861781551588668400764248368617556812281858760299340630065680),
      (154, 12861781551588645564801165073259459879706347568377158506119696),
      (9, 12861781551588645564801143473304528374823412881512428950519824),
      (4, 12861781551588645564801143473304528374823412881512428950519808),
      (124, 12861781551588645564801143805611527321052381107464194020605952),
      (118, 12861781551588645564801143473304528374823412881512428950519808),
      (72, 12861781551588645564801143473304528374818690515029559305306112),
      (158, 12861781551588280189391810747574977453615233810757514967384080),
      (27, 12861781551588280189391810747574977453615233810757514833166336),
      (203, 6277197516723360465446734575227554641066564767216622895104),
      (107, 6277197516723360465446734412968277811853201375638612606976),
      (137, 6277197516723360291222162711707061347818765762151298629632),
      (192, 95781336679701610945152019888224964209322752588382208),
      (176, 365375409332725729550921208179070754914117353472)]
  | .IsDistinctFromOperator => [
      (104, 57896044618658110573579304057339281801750310808414635770990408208344277844496),
      (102, 57896044618658110573579304057339281801750310803344033370077490602357465022992),
      (255, 12861793811552995327875115318470523751350348698598400900203024),
      (183, 12861781551588668400764248451694306548876879748685423431385616),
      (116, 12861781551588668400764248368617556812319637692197482163864080),
      (45, 12861781551588668400764248368617556812319637692162297791775248),
      (75, 12861781551588668400764248368617556812281858760299340630065680),
      (154, 12861781551588645564801165073259459879706347568377158506119696),
      (9, 12861781551588645564801143473304528374823412881512428950519824),
      (4, 12861781551588645564801143473304528374823412881512428950519808),
      (124, 12861781551588645564801143805611527321052381107464194020605952),
      (118, 12861781551588645564801143473304528374823412881512428950519808),
      (72, 12861781551588645564801143473304528374818690515029559305306112),
      (158, 12861781551588280189391810747574977453615233810757514967384080),
      (27, 12861781551588280189391810747574977453615233810757514833166336),
      (203, 6277197516723360465446734575227554641066564767216622895104),
      (107, 6277197516723360465446734412968277811853201375638612606976),
      (137, 6277197516723360291222162711707061347818765762151298629632),
      (192, 95781336679701610945152019888224964209322752588382208),
      (176, 365375409332725729550921208179070754914117353472)]
  | .JoinOperator => [(104, 57896044618658110598687615217549325329771812163089575463214620954124154307088),
      (95, 57896044618658110598687615217549325329771812163049961381957488785327382331920),
      (126, 57896044618658110598687615217549325329686741571319726766091645133469440279056),
      (102, 57896044618658110598687615217549325329686741566249124365178727527482627457552),
      (255, 12886902122713205371403051749233428842345449935523526062637584),
      (183, 12886889862748878444292184882457211639871980985610548593820176),
      (154, 12886889862748855608329101587099114707296469793688366469874192),
      (120, 12886889862748855608329100257871118922380596889881306189529616),
      (194, 12861781455807308885273758429406284041632060371910510331822608),
      (4, 57896044618658110598687615217549325329771812183371985066866291378071405593088),
      (9, 57896044618658110598687615217549325329771812183371985066866291378071405592592),
      (107, 57896044618658110598687615217549325329771812021112708237652927986493395304976),
      (137, 57896044618658110598687615217549325155547240319851491773618492373006081327632),
      (192, 57896044618658110592410513482162644565936022760164318650763935933607371080208),
      (203, 57896044618658097743183261145627120994075073454071164889242341115728723182096)]
  | .JoinPipeOperator => [
      (112, 57896044618658097736906159410217604092846346035568362774543993296733035560960),
      (102, 57896044618658097736906159410217604092846346030497760373631075690746222739456),
      (255, 25120666905873650166211353697677478353902283686789657919488),
      (183, 25108406941546723055344486921460275880433333773812189102080),
      (65, 25108406941546723055344486921460275880396440285664769998848),
      (120, 25108406941546723055343157693464490964523536478604489654272),
      (194, 1329228629610215987018507808631947264),
      (99, 57896044618658097736906159410217604092846351227231396009257507126481013178368)]
  | .LimitClause => [(102, 57896044618658097711797752468670881037502523723035376951152640564537883361280),
      (255, 12259964326927110867531390215094931423848560581318541312),
      (183, 664613997892457954898647603849723904), (64, 664613997892457936451903530140172288)]
  | .LimitPipeOperator => [
      (102, 57896044618658097711797752468670881037502523723669202251285202009359944515584),
      (255, 12259964326927110867531390848920231556410005403379695616),
      (183, 664614631717758087460092425910878208), (65, 664614631717758050566604278491774976),
      (119, 633825300114114700748351602688),
      (99, 57896044618658097711797752468670881037502523728105979352084004914598405734400)]
  | .LoadStatement => [(103, 57896044618658126636731588989265050885873373399264177865898502698275430727680),
      (21, 57896044618658126636731588989265050885873373399264177865898502698275428630528),
      (102, 57896044618658126636731588989265050885873373394193575464985585092288615809024),
      (255, 28924946096484921096959238381061373293445256793088332050989056),
      (183, 28924933836520594169848371514285156090971787843175354582171648),
      (35, 28924933836520594169848371514285156090971787843175320222433280),
      (94, 28924933836520594169848371514285136283931159277090921836445696),
      (84, 28924933836520594169848371514285136264588346163256855041146880),
      (130, 28924933836520594169847010384817452510734492664827127968301056),
      (23, 28924933836520594169847010384817452510734492664827127959912448),
      (133, 28924933836520594169836121349075982479903664677389311377145856),
      (19, 28924933836520594169836121349075982479903664677389311376621568),
      (122, 28924933836520594169836116032163999340240173062161070255243264),
      (75, 28924933836520594169836116032163999340202394130298113093533696),
      (69, 28924933836520594169836116032163999340201803834487754387881984),
      (76, 28924933836520594169836116032163999340126245970761840064462848),
      (204, 3213925128376749761164722554705397699770998070237154699640832),
      (201, 49039858769210080798370023072494726592082671569029038080),
      (30, 49039858769210080798370023072494726592082671567955296256),
      (31, 49039858769210080798370023072494726592082671565807812608),
      (185, 1461501637330902918203684832716283019655932542976)]
  | .LoopStatement => [(103, 57896044618658097711846792701584510275011376197323898796071483456781539082240),
      (21, 57896044618658097711846792701584510275011376197323898796071483456781536985088),
      (102, 57896044618658097711846792701584510275011376192253296395158565850794724163584),
      (255, 61300197240556348376383859433014375429773846838159343616),
      (183, 49040232913629237509517083215811901960823933860690526208),
      (168, 49039858769210080798370023072494726592370901941959524352),
      (58, 49039858769210080798370023072494726592082671565807812608),
      (185, 1461501637330902918203684832716283019655932542976)]
  | .MatchRecognizeClause => [
      (102, 57896044618658097711797752468670881037501859109037484493197741916934570508816),
      (255, 12259964326927110866866776217202473468949912978005688848), (183, 536871440), (29, 528), (9, 16)]
  | .MatchRecognizeConfig => [
      (102, 57896044618658097711797752475247638438205884269360844971743329140452758650880),
      (255, 12259970903684511570891936540562952014537136496193830912),
      (183, 6576757400704025160323360478545587223518725013504),
      (133, 6576757389814989418853329647717599785702142246912),
      (125, 6576757389772454122988212339784677959773171220480),
      (111, 6576757389772451526839783072370863694525006610432),
      (162, 730750840448839854025043741505731615901276438528),
      (134, 730750818670768371084982079849756740268110905344),
      (41, 730750818670768371084982079849756738069087649792),
      (122, 730750818665451459101842416358141509827966271488)]
  | .MatchRecognizePipeOperator => [
      (102, 57896044618658097711797752468670881037501859109037484493197741916934570508816),
      (255, 12259964326927110866866776217202473468949912978005688848), (183, 536871440), (29, 528), (9, 16)]
  | .MergeStatement => [(103, 57896044618658097937822478746603424645903389449844463780470002129449349283840),
      (21, 57896044618658097937822478746603424645903389449844463780470002129449347186688),
      (102, 57896044618658097937822478746603424645903389444773861379557084523462534365184),
      (255, 226036986242259470719268397111953579359828292519505969545216),
      (183, 226024726277932543608401530335736376886359342606528500727808),
      (94, 226024726277932543608401530335716569845730776522130114740224),
      (174, 226024702332689717578888118486544270622149782479331330621440),
      (194, 200916295391142994523544960793713604957740360701475192569856),
      (120, 200916295389681492886212728647514135209151173874758979682304),
      (197, 49039857307708443467467104868809893875799651909875269632)]
  | .MultiTokenIdentifier => [
      (102, 57896044618658110573603823985604924651067940191380847938304139365133494256144),
      (255, 12861818331481260970724432947858560565918575347361176929436176),
      (183, 12861806071516934043613566081082343363445106397448199460618768),
      (184, 12861781551588280189391832347529908958498168497622244522983952),
      (27, 12861781551588280189391832347529908958498168497622244388766224),
      (124, 12861781551588280189391811079881976399844202036709280037470736),
      (118, 12861781551588280189391810747574977453615233810757514967384592),
      (9, 12861781551588280189391810747574977453615233810757514967384080),
      (4, 12861781551588280189391810747574977453615233810757514967384064),
      (72, 12861781551588280189391810747574977453610511444274645322170368),
      (203, 6277197516357985056114008845676633432887494012302639759360),
      (107, 6277197516357985056114008683417356603674130620724629471232),
      (137, 6277197516357984881889436982156140139639695007237315493888),
      (192, 95780971304292278219422468967016785138567838605246464), (176, 134217728)]
  | .NumericLiteral => [(102, 57896044618658097711797752469059092409939480151616843159822691458759830536720),
      (255, 12259964715138483304487818796561140093899454803265716752),
      (183, 388211372437621042579358666624949541825796899344),
      (9, 388211372416021087647853783690262677096241299472),
      (4, 388211372437621042579358666624949541825796898816),
      (124, 388211372416353394646800012658488628861311385600),
      (118, 388211372416021087647853783690262677096241299456),
      (154, 365375409354325684482426091113757619643672953360),
      (158, 22835963083295358096932575511191922182258163728),
      (27, 22835963083295358096932575511191922182123945984)]
  | .NullLiteral => [(102, 57896044618658097711797752469059092409939480151616843159822691458759830536720),
      (255, 12259964715138483304487818796561140093899454803265716752),
      (183, 388211372437621042579358666624949541825796899344),
      (9, 388211372416021087647853783690262677096241299472),
      (4, 388211372437621042579358666624949541825796898816),
      (124, 388211372416353394646800012658488628861311385600),
      (118, 388211372416021087647853783690262677096241299456),
      (154, 365375409354325684482426091113757619643672953360),
      (158, 22835963083295358096932575511191922182258163728),
      (27, 22835963083295358096932575511191922182123945984)]
  | .OrPattern => [(104, 57896044618658097711797752468693717000585154472205019469621851445102970404864),
      (102, 57896044618658097711797752468693717000585154467134417068708933839116157583360),
      (255, 12259964349763073950162134314135048980141835159592763392),
      (183, 22835963083295358096932575511191922182123945984)]
  | .OverClause => [(102, 57896044618658098515266774598166018808482905279618785754299238808330451288064),
      (255, 803481282093822064881847912946798503734570446804373886468096),
      (183, 803469022129495137770981046170581301261101496891396417650688)]
  | .OverwritePartitionsClause => [
      (129, 57896044618658097711797752468670881037501859114108089311962298752179195871232),
      (102, 57896044618658097711797752468670881037501859109037486911049381146192383049728),
      (255, 12259964326927110866866776217204891320589142235818229760), (183, 2417851639229258349412352)]
  | .Parameter => [(102, 57896044618658110573579304057339281801750227726594296775056502216274663703056),
      (255, 12861793811552995327875115235393774014755327710212318098883088),
      (183, 12861781551588668400764248368617556812281858760299340630065680),
      (9, 12861781551588668400764226768662625307398924073434611074465808),
      (4, 12861781551588668400764248368617556812281858760299340630065152),
      (124, 12861781551588668400764227100969624253627892299386376144551936),
      (118, 12861781551588668400764226768662625307398924073434611074465792),
      (154, 12861781551588645564801165073259459879706347568377158506119696),
      (158, 12861781551588303025354894042933074386190745002679697091330064),
      (27, 12861781551588303025354894042933074386190745002679696957112320),
      (72, 57896044618658110573579304057339281801750227731664899171247053339391831310864),
      (107, 57896044618658110573579304057339281801750227569405622346756056430683466236432),
      (137, 57896044618658110573579304057339281627525655868144405882721620817196152259088),
      (176, 57896044618658110573579208276367977683696580334975702281645443651066340049424),
      (192, 57896044618658110567302202321952601037914438308457232759867064377797442011664),
      (203, 57896044618658097718074949985417077466053489002364078998345469559918794113552)]
  | .Pattern => [(102, 57896044618658097711797753965248557664346447349610753194671554044608957644800),
      (255, 12261460904603737711455016790471174942762040652392824832),
      (183, 1496577676626844588240573268701473812127674924007424)]
  | .PatternClause => [(102, 57896044618658097711797752468670881059279930591977546154853716792567199170560),
      (255, 12259964326927132644938259157264135124924788610634350592),
      (183, 21778071482940061661655974875633165533184)]
  | .PatternQuantifier => [
      (102, 57896044618658097711797752468670903338247069322328557732278178758912414580736),
      (255, 12259964326949411612076989508275712549386754955849760768),
      (183, 22300745210213291073239080436841978380943360),
      (113, 22300745199828697356169425179780985722503168),
      (27, 22300745199828697356169425179780985588285440), (110, 22300745198530623141535718272648361505980416)]
  | .PipeStatement => [(103, 57896044618658113787504432434089042966472782457345008550619160483360208323088),
      (21, 57896044618658113787504432434089042966472782457345008550619160483360206225936),
      (201, 57896044618658110573628343916108491882548597775019803506213172917774535623184),
      (104, 57896044618658110573628343916108491882548597754737393902561502493827284337168),
      (102, 57896044618658110573628343916108491882548597749666791501648584887840471515664),
      (255, 12861842851411764537955913605416846509481919792883883906695696),
      (183, 12861830591447437610845046738640629307008450842970906437878288),
      (154, 12861830591447414774881963443282532374432939651048724313932304),
      (160, 12861781551588645564801165073259459879706347568377158506119696),
      (9, 12861830591445953273244610940419538389519114516376312453529616),
      (4, 12861830591445953273244632540374469894402049203241042009128960),
      (72, 12861830591445953273244632540374469894397326836758172363915264),
      (124, 12861830591445953273244611272726537335748082742328077523615744),
      (118, 12861830591445953273244610940419538389519114516376312453529600),
      (158, 12861830591445587897835278214689987468310935445621398470393872),
      (27, 12861830591445587897835278214689987468310935445621398336176128),
      (185, 12861781551588645564801165073259459879706347568377158506119696),
      (203, 6326237374031068908935801645169074219702886495829681504256),
      (107, 6326237374031068908935801482909797390489523104251671216128),
      (137, 6326237374031068734711229781648580926455087490764357238784),
      (192, 49135638644388145100012221961407803600531051365646991360),
      (176, 49039857673083852821792799492440786815392483527175962624)]
  | .PivotConfig => [(102, 57896044618658097711797752469401631856167310568140564851993245536619140743168),
      (255, 12259965057677929532318235320282832264453532662575923200),
      (183, 730750818665451459103080358795503619685107105792),
      (65, 730750818665451459103080358758610131537688002560),
      (71, 730750818665451459103080356397426890102865395712),
      (90, 730750818665451459101842416358141509827966271488)]
  | .PivotOperator => [(102, 57896044618658097711797752468670881037501859109037484493197741916934570508816),
      (255, 12259964326927110866866776217202473468949912978005688848), (183, 536871440), (29, 528), (9, 16)]
  | .PivotPipeOperator => [
      (102, 57896044618658097711797752468670881037501859109671309793311856617682922111504),
      (255, 12259964326927110866866776851027773583064613726357291536), (183, 633825300114114700748888474128),
      (29, 633825300114114700748351603216), (9, 633825300114114700748351602704),
      (4, 633825300114114700748351602688),
      (99, 57896044618658097711797752468670881037501859114108086894110659522921383330320)]
  | .RaiseStatement => [(103, 57896044618658097736955199268986814173643386830011247285112163972342794420224),
      (21, 57896044618658097736955199268986814173643386830011247285112163972342792323072),
      (102, 57896044618658097736955199268986814173643386824940644884199246366355979501568),
      (255, 25169706764642860247008394492120362864470454362399414681600),
      (183, 25157446800315933136141527715903160391001504449421945864192),
      (194, 49039858769210080798370023072494726592082671565807812608),
      (185, 1461501637330902918203684832716283019655932542976)]
  | .RangeLiteral => [(190, 57896044618658097711797752469036256446856184798590512985224417142564519412240),
      (102, 57896044618658097711797752469036256446856184793519910584311499536577706590736),
      (255, 12259964692302520221192460699628564582707532621141770768),
      (183, 365375409354325684482426091113757619643672953360),
      (9, 365375409332725729550921208179070754914117353488),
      (4, 365375409354325684482426091113757619643672952832),
      (124, 365375409333058036549867437147296706679187439616),
      (118, 365375409332725729550921208179070754914117353472), (158, 134217744)]
  | .RenameColumnClause => [
      (102, 57896044618658097711800817459752612815218575803091881825630548565512515747840),
      (255, 15324955408658888583583470271599805901756561555950927872),
      (183, 3064991081731777716716694054397332432806648578482110464),
      (22, 3064991081731777716716694054397332432806648578477916160),
      (86, 3064991081731777716716694054319961180351312311296720896),
      (84, 3064991081731777716716694054300618367237478244501422080), (181, 134217728)]
  | .RepeatStatement => [
      (103, 57896044618658097724400996172357871802682955043739231628276482576085759819776),
      (21, 57896044618658097724400996172357871802682955043739231628276482576085757722624),
      (102, 57896044618658097724400996172357871802682955038668629227363564970098944901120),
      (255, 12615503668013917876047962705848347207634772966142380081152),
      (183, 12603243703686990765181095929631144734165823053164911263744),
      (168, 12603243329542571608469948869487827558797370021246180261888),
      (193, 49039858769210080798370023072494726592659132318111236096),
      (59, 49039858769210080798370023072494726592082671565807812608),
      (185, 1461501637330902918203684832716283019655932542976)]
  | .RevokeStatement => [
      (103, 57896044618658097711846792327625633318353333149713963093196126066300650782720),
      (21, 57896044618658097711846792327625633318353333149713963093196126066300648685568),
      (102, 57896044618658097711846792327625633318353333144643360692283208460313835864064),
      (255, 61299823281679391718340811823078672554416456357271044096),
      (183, 49039858954752280851474035605876199085466543379802226688),
      (157, 49039858772064576185111170830415594995931165922810658816),
      (120, 49039858772064576183781942834630679123027358862530314240),
      (151, 49039858769210080798370023072514107184128368589764820992),
      (84, 49039858769210080798370023072494764371014534522969522176),
      (75, 49039858769210080798370023072494726592082671565807812608),
      (185, 1461501637330902918203684832716283019655932542976)]
  | .SelectPipeOperator => [
      (102, 57896044618658098515266774598166018808482905280252611054450246997226221993984),
      (255, 803481282093822064881847912947432329034721454993269657174016),
      (183, 803469022129495137770981046171215126561252505080292188356608),
      (99, 803469022129495137770981046170581301261138390379543836753920),
      (65, 803469022129495137770981046170581301261101496891396417650688)]
  | .SelectStatement => [
      (103, 57896044618658114992707965628308915053700166619996326414075462548777414428176),
      (21, 57896044618658114992707965628308915053700166619996326414075462548777412331024),
      (201, 57896044618658111778831877110328363969775981937671121369669474983191741728272),
      (102, 57896044618658111778831877110328363969775981932600518968756557377204928906768),
      (255, 14067046384605984410043140989599780236949027765373248364086800),
      (183, 14067034124641657482932274122823563034475558815460270895269392),
      (44, 14067034124641657482932274122823563034475558815442678709224976),
      (46, 14067034124641657482932274122823563034475558815372309965047312),
      (10, 14067034124641657482932274122823563034475558815372309965046288),
      (65, 14067034124641657482932274122823563034475521921884162545943056),
      (75, 14067034124641657482932274122823563034437742990021205384233488),
      (198, 13665299613576909914046783599738272383807192241575507175408144),
      (80, 13665299613576909914046783599738272382598266421960878000701968),
      (82, 13665299613576909914046783599738272377762563143502361301877264),
      (140, 13665299613576909912652987024830108431416580751461838707753488),
      (199, 12861830591447414774882005978659527130155479254570442290102800),
      (125, 12861830591447414774881963443363662012847546332744513319076368),
      (106, 12861830591447414774881963443282532374432939651048724313932304),
      (9, 12861830591447414774881941843337742074351830799395968386072592),
      (4, 12861830591447414774881963443292673579234765486260697941671936),
      (72, 12861830591447414774881963443292673579230043119777828296458240),
      (124, 12861830591447414774881942175644741020580799025347733456158720),
      (118, 12861830591447414774881941843337742074351830799395968386072576),
      (158, 12861830591447049399472609117608191153143651728641054402936848),
      (27, 12861830591447049399472609117608191153143651728641054268719104),
      (185, 12861781551590107066438495976177663564539063851396814438662672),
      (160, 12861781551588645564801165073259459879706347568377158506119696),
      (203, 6326237375492570546266704563372759052419169515485614047232),
      (107, 6326237375492570546266704401113482223205806123907603759104),
      (137, 6326237375492570372042132699852265759171370510420289781760),
      (192, 49135640105889782430915140165092636316814071021579534336),
      (176, 49039859134585490152695717696125619531675503183108505600)]
  | .SetOperator => [(103, 57896044618658113787504432434089042966515323026636622807986392605951847834128),
      (21, 57896044618658113787504432434089042966515323026636622807986392605951845736976),
      (201, 57896044618658110573628343916108491882591138344311417763580405040366175134224),
      (104, 57896044618658110573628343916108491882591138324029008159928734616418923848208),
      (112, 57896044618658110573628343916108491882591133131732149625101106085922594628112),
      (102, 57896044618658110573628343916108491882591133126661547224188188479935781806608),
      (255, 12861842851411764537955956140793841265204459396475979216986640),
      (183, 12861830591447437610845089274017624062730990446563001748169232),
      (46, 12861830591447437610845089274017624062730990446492633003991568),
      (13, 12861830591447437610845089274017624062730990446492633003983376),
      (33, 12861830591447437610845089274017624062730990446492624414056976),
      (154, 12861830591447414774882005978659527130155479254570442290102800),
      (125, 12861830591447414774881963443363662012847546332744513319076368),
      (106, 12861830591447414774881963443282532374432939651048724313932304),
      (9, 12861830591447414774881941843337742074351830799395968386072592),
      (4, 12861830591447414774881963443292673579234765486260697941671936),
      (72, 12861830591447414774881963443292673579230043119777828296458240),
      (124, 12861830591447414774881942175644741020580799025347733456158720),
      (118, 12861830591447414774881941843337742074351830799395968386072576),
      (158, 12861830591447049399472609117608191153143651728641054402936848),
      (27, 12861830591447049399472609117608191153143651728641054268719104),
      (185, 12861781551590107066438495976177663564539063851396814438662672),
      (160, 12861781551588645564801165073259459879706347568377158506119696),
      (203, 6326237375492570546266704563372759052419169515485614047232),
      (107, 6326237375492570546266704401113482223205806123907603759104),
      (137, 6326237375492570372042132699852265759171370510420289781760),
      (192, 49135640105889782430915140165092636316814071021579534336),
      (176, 49039859134585490152695717696125619531675503183108505600)]
  | .SetStatement => [(103, 57896044618658097711846792327440091118300229137180581620721188938560365920256),
      (21, 57896044618658097711846792327440091118300229137180581620721188938560363823104),
      (102, 57896044618658097711846792327440091118300229132109979219808271332573551001600),
      (255, 61299823096137191665236799289697200079479328616986181632),
      (183, 49039858769210080798370023072494726610529415639517364224),
      (64, 49039858769210080798370023072494726592082671565807812608),
      (185, 1461501637330902918203684832716283019655932542976)]
  | .SingleTokenStatement => [
      (103, 57896044618658097711846792327440091118300229137180581620702742194486656368640),
      (21, 57896044618658097711846792327440091118300229137180581620702742194486654271488),
      (102, 57896044618658097711846792327440091118300229132109979219789824588499841449984),
      (255, 61299823096137191665236799289697200061032584543276630016),
      (183, 49039858769210080798370023072494726592082671565807812608),
      (185, 1461501637330902918203684832716283019655932542976)]
  | .StringLiteral => [(102, 57896044618658097711797752469059092409939480151616843159822691458759830536720),
      (255, 12259964715138483304487818796561140093899454803265716752),
      (183, 388211372437621042579358666624949541825796899344),
      (9, 388211372416021087647853783690262677096241299472),
      (4, 388211372437621042579358666624949541825796898816),
      (124, 388211372416353394646800012658488628861311385600),
      (118, 388211372416021087647853783690262677096241299456),
      (154, 365375409354325684482426091113757619643672953360),
      (158, 22835963083295358096932575511191922182258163728),
      (27, 22835963083295358096932575511191922182123945984)]
  | .StructLiteral => [(190, 57896044618658097711797752469767007265521636257692355401619452140539904786960),
      (102, 57896044618658097711797752469767007265521636252621753000706534534553091965456),
      (255, 12259965423053338886643919801470980977742530596527145488),
      (183, 1096126228019777143584268507508792617619058328080),
      (65, 1096126228019777143584268507471899129471639224848),
      (159, 365375409354325684482426091113757619643672953360),
      (9, 365375409332725729550921208179070754914117353488),
      (4, 365375409354325684482426091113757619643672952832),
      (124, 365375409333058036549867437147296706679187439616),
      (118, 365375409332725729550921208179070754914117353472), (158, 134217744)]
  | .Symbol => [(102, 57896044618658097711797752468670881037501859109037484493197741916934033637376),
      (255, 12259964326927110866866776217202473468949912977468817408)]
  | .TableSampleClause => [
      (102, 57896044618658097711797755461826234291191035590184022500608275979598469005312),
      (255, 12262957482280364556043257363740480879483975641904185344),
      (183, 2993155353253689176481146538007410534062664435367936), (171, 604462909807314587353088)]
  | .TableSamplePipeOperator => [
      (102, 57896044618658097711797752468670881037501859109671310397774766424996972593152),
      (255, 12259964326927110866866776851028378045974421040407773184), (183, 633825904577024508062938955776),
      (99, 604462909807314587353088)]
  | .TableSampleRatio => [
      (102, 57896044618658097711797752469401631943279596499899573556198229673368371593216),
      (255, 12259965057678016644604167079291536469437669411806773248),
      (183, 730750905777737390862089063000487756434337955840),
      (64, 730750905777737390862089062982041012360628404224),
      (136, 730750818665451459101842416358141509827966271488)]
  | .Template => [(102, 57896044618658110573579304057339281801750227726594296775056502216274663703056),
      (255, 12861793811552995327875115235393774014755327710212318098883088),
      (183, 12861781551588668400764248368617556812281858760299340630065680),
      (9, 12861781551588668400764226768662625307398924073434611074465808),
      (4, 12861781551588668400764248368617556812281858760299340630065152),
      (124, 12861781551588668400764227100969624253627892299386376144551936),
      (118, 12861781551588668400764226768662625307398924073434611074465792),
      (154, 12861781551588645564801165073259459879706347568377158506119696),
      (158, 12861781551588303025354894042933074386190745002679697091330064),
      (27, 12861781551588303025354894042933074386190745002679696957112320),
      (72, 57896044618658110573579304057339281801750227731664899171247053339391831310864),
      (107, 57896044618658110573579304057339281801750227569405622346756056430683466236432),
      (137, 57896044618658110573579304057339281627525655868144405882721620817196152259088),
      (176, 57896044618658110573579208276367977683696580334975702281645443651066340049424),
      (192, 57896044618658110567302202321952601037914438308457232759867064377797442011664),
      (203, 57896044618658097718074949985417077466053489002364078998345469559918794113552)]
  | .TrainingDataCustomHolidayClause => [
      (102, 57896044618658097711895832184017048743102244777876946697307482730598930317312),
      (255, 110339679673094816467252445056664677578690726642365497344),
      (183, 98079715346167705600385668839462204109740813664896679936),
      (186, 730750818665451459101842416358141509845146140672),
      (34, 730750818665451459101842416358141509827966271488)]
  | .TransactionStatement => [
      (103, 57896044618658097712239111185901758666039965976131060771709139409765658525696),
      (21, 57896044618658097712239111185901758666039965976131060771709139409765656428544),
      (102, 57896044618658097712239111185901758666039965971060458370796221803778843607040),
      (255, 453618681557804739404973638240176351067429799822278787072),
      (183, 441358717230877628538106862022973877598479886844809969664),
      (188, 49039858769210080798370023072494726592082671565807812608),
      (185, 1461501637330902918203684832716283019655932542976)]
  | .TruncateStatement => [
      (103, 57896044618658097711846828245304330162570346910939030456074233258684832546816),
      (21, 57896044618658097711846828245304330162570346910939030456074233258684830449664),
      (102, 57896044618658097711846828245304330162570346905868428055161315652698017628160),
      (255, 61335740960376235935354573048146035432523648741452808192),
      (183, 49075776633449125068487796830943561963573735763983990784),
      (173, 49063804012036110311781872244793950173076714364591931392),
      (174, 49039858769210080798370023072494726592082671565807812608),
      (185, 1461501637330902918203684832716283019655932542976)]
  | .Type => [(102, 57896044618658097716505578770210981164536381026826907520328228010999799611400),
      (255, 4720086265867027237901388694006625500599436007043234791432),
      (183, 4707826301540100127034521917789423027130486094065765974024),
      (131, 4707826301540100124312262982421915319423489234611620282376),
      (190, 3138550867693429936075574561987506423104897232949757345800),
      (191, 1569275433846759745116627206185589819079308371833748717576),
      (20, 89551435420915016165507346722651263593349128), (32, 89551435420915016165507346722651259298381832),
      (138, 89202986277187975178920851124641128649850888), (61, 5483065482612777975728204673412235272),
      (146, 5483065482612777975728204673412235272), (39, 5483065482612777975728204123656421384),
      (117, 5316911983139663491615228241121378312), (122, 8)]
  | .TypeDeclaration => [(91, 57896044618658097713367027902517551228460806469910003498136248384036989304832),
      (102, 57896044618658097713367027902517551228460806464839401097223330778050176483328),
      (255, 1581535398173597301825814132019119077494538774093611663360),
      (183, 1569275433846670190958947355801916604025588861116142845952), (190, 134217728)]
  | .UnaryOperator => [(102, 57896044618658097711797752469059092409939480151616843159822691458759830536720),
      (255, 12259964715138483304487818796561140093899454803265716752),
      (183, 388211372437621042579358666624949541825796899344),
      (154, 365375409354325684482426091113757619643672953360),
      (9, 365375409332725729550921208179070754914117353488),
      (4, 365375409354325684482426091113757619643672952832),
      (124, 365375409333058036549867437147296706679187439616),
      (118, 365375409332725729550921208179070754914117353472), (158, 134217744)]
  | .Unknown => [(102, 57896044618658097711797752469059092409939480151616843159822691458759830536720),
      (255, 12259964715138483304487818796561140093899454803265716752),
      (183, 388211372437621042579358666624949541825796899344),
      (9, 388211372416021087647853783690262677096241299472),
      (4, 388211372437621042579358666624949541825796898816),
      (124, 388211372416353394646800012658488628861311385600),
      (118, 388211372416021087647853783690262677096241299456),
      (154, 365375409354325684482426091113757619643672953360),
      (158, 22835963083295358096932575511191922182258163728),
      (27, 22835963083295358096932575511191922182123945984)]
  | .UndropStatement => [
      (103, 57896044618658097812280420093626983339672859908503418363658453812512366264320),
      (21, 57896044618658097812280420093626983339672859908503418363658453812512364167168),
      (102, 57896044618658097812280420093626983339672859903432815962745536206525551345664),
      (255, 100494927589283029413037867570612533943016744202568986525696),
      (183, 100482667624956102302171000794395331469547794289591517708288),
      (196, 49039858769210080798370023072668811910107178166965501952),
      (87, 49039858769210080798370023072514069405196505632603111424),
      (84, 49039858769210080798370023072494726592082671565807812608),
      (185, 1461501637330902918203684832716283019655932542976)]
  | .UnionPipeOperator => [
      (112, 57896044618658097711797752468670881037501859114741912194261667711825207107584),
      (102, 57896044618658097711797752468670881037501859109671309793348750105838394286080),
      (255, 12259964326927110866866776851027773619958101881829466112), (183, 633825300151008188904360648704),
      (99, 36893488156009046016), (13, 36893488156009037824), (33, 36893488147419111424)]
  | .UnpivotOperator => [
      (102, 57896044618658097711797752468670881037501859109042436253354883438034167005712),
      (255, 12259964326927110866866776222154233626091434077602185744), (183, 4951760157141521100133368336),
      (92, 536871440), (29, 528), (9, 16)]
  | .UnpivotPipeOperator => [
      (102, 57896044618658097711797752468670881037501859109671309793311856617682922111504),
      (255, 12259964326927110866866776851027773583064613726357291536), (183, 633825300114114700748888474128),
      (99, 536871440), (29, 528), (9, 16)]
  | .UnpivotConfig => [(102, 57896044618658097711797752469401631856167310568140564851974798792545431191552),
      (255, 12259965057677929532318235320282832246006788588866371584),
      (183, 730750818665451459103080358777056875611397554176),
      (64, 730750818665451459103080358758610131537688002560),
      (71, 730750818665451459103080356397426890102865395712),
      (90, 730750818665451459101842416358141509827966271488)]
  | .UpdateStatement => [
      (103, 57896044618658098113581327340353489307965969908050901178045982585252676108288),
      (21, 57896044618658098113581327340353489307965969908050901178045982585252674011136),
      (102, 57896044618658098113581327340353489307965969902980298777133064979265861189632),
      (255, 401795834836009535381330977570160016757404272975309296369664),
      (183, 401783574871682608270464110793942814283935323062331827552256),
      (174, 401783550926439782240950698944770515060354329019533043433472),
      (161, 401783550923516778966288893108363145394921762980221178347520),
      (75, 401783550923516778966288893108363145357142831117264016637952),
      (198, 49039858769210080798370023072494726592082671565807812608),
      (185, 1461501637330902918203684832716283019655932542976)]
  | .WhenClause => [(102, 57896044618658097711798518716441313981931121683819349863458334557592413552704),
      (255, 13026212097360055296129350999067843729542553635848732736),
      (183, 766247770432944429262574781865370260592640658379915328),
      (116, 766247770432944429179498032128813018536152717112393792),
      (108, 766247770432944429179173513575154591809369561091817536),
      (14, 766247770432944429179173513575154591809369561091801152),
      (6, 766247770432944429179173513575154591809369561091801088)]
  | .WhileStatement => [(103, 57896044618658097711846792327440091118300229137180581620703895256729020006400),
      (21, 57896044618658097711846792327440091118300229137180581620703895256729017909248),
      (102, 57896044618658097711846792327440091118300229132109979219790977650742205087744),
      (255, 61299823096137191665236799289697200062185646785640267776),
      (183, 49039858769210080798370023072494726593235733808171450368),
      (28, 49039858769210080798370023072494726593235733807903014912),
      (47, 49039858769210080798370023072494726593235593070414659584),
      (60, 49039858769210080798370023072494726592082671565807812608),
      (185, 1461501637330902918203684832716283019655932542976)]
  | .WindowClause => [(102, 57896044618658099318735796727661156579463951450200087015400735699726868938752),
      (255, 1606950304223317202652828959117379804995671943695770304118784),
      (183, 1606938044258990275541962092341162602522202993782792835301376)]
  | .WindowExpr => [(102, 57896044618658098515266774598166018808482905279618785754299238808330585506304),
      (255, 803481282093822064881847912946798503734570446804374020686336),
      (183, 803469022129495137770981046170581301261101496891396551868928),
      (9, 803469022129495137770981046170581301261101496891396551868416), (199, 134217728)]
  | .WindowFrameClause => [
      (102, 57896044618658097711797752562206985826679645874073313787039873189312225873984),
      (255, 12260057863031900044653541253031767311081185355661054016),
      (183, 93536104789177786765035829293842131272378192236608),
      (12, 93536104789177786765035829293842131272378192232512), (166, 18014398509482048),
      (6, 18014398509481984)]
  | .WindowSpecification => [
      (102, 57896044618658097711797752469401631867098902374661909206516772743971451437056),
      (255, 12259965057677940463910041841627186787980740014886617088),
      (183, 730750829597043265624424713319030827037417799680),
      (114, 730750829597022496436990574008516705052100919296),
      (133, 730750818707986754966959743180529267235518152704),
      (125, 730750818665451459101842435247607441306547126272),
      (74, 730750818665451459101842416358141509827966271488)]
  | .WithClause => [(102, 57896044618658097711797752468670931214178555802939552948563855375747422093312),
      (255, 12259964326977287543563470119270928835063371790857273344),
      (183, 50176676696693902068455366113458813388455936), (145, 5575186299632655785383929568162090376495104)]
  | .WithOffsetClause => [
      (102, 57896044618658097711797752468670881037502523723035376951134193820464173810192),
      (255, 12259964326927110867531390215094931405401816507608990224),
      (183, 664613997892457936451903530140172816), (119, 528), (9, 16)]
  | .WithPipeOperator => [
      (102, 57896044618658097711797752468670931214178555802939552948563855375747422093312),
      (255, 12259964326977287543563470119270928835063371790857273344),
      (183, 50176676696693902068455366113458813388455936), (145, 5575186299632655785383929568162090376495104)]
  | .WithPartitionColumnsClause => [
      (102, 57896044618658097711797752468670881042946376979772499908611735635842358575104),
      (255, 12259964326927116311384646952217888882943631885793755136),
      (183, 5444517870735015415413993718908324937728), (132, 33554432)]
  | .WithQuery => [(102, 57896044618658097711797752655743090615857432639109143080881968432893533356544),
      (255, 12260151399136689222440306288861061153176428936968536576),
      (183, 187072209578355573530071658587684226515959499719168),
      (9, 187072209578355573530071658587684226515959499718656), (167, 134217728)]
  | .XXXByExprs => [(102, 57896044618658097711797752468670881037501859109037484493234635405081452748800),
      (255, 12259964326927110866866776217202473505843401124887928832), (183, 36893488147419111424),
      (13, 36893488147419103232)]

end Verif.OI
