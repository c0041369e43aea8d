import Verif.Model.Program
/-! Generated by tools/schema.py: the tables of Verif.Spec.Schema as bit masks (checked in
Verif.Proofs.Masks). -/
namespace Verif.AI

/-- Keys that may hold a single node. -/
def allowN : NodeType → Nat
  | .AccessOperator => 12861781551589399151582913487789942118072900346281350777537040
  | .AddColumnClause => 103572178633880232603290525482926495865688864833656703680512
  | .AddConstraintClause => 100433627766186892221372630771322662657637687111424686424064
  | .AggregatePipeOperator => 633826509039934315377526308864
  | .AlterColumnStatement => 102051943061725775767797070908728807461818488958249533964288
  | .AlterBICapacityStatement => 100482667627879105576838123552926890857792900096583769522176
  | .AlterModelStatement => 100482667627879105576838123552926890857792900096583769522176
  | .AlterOrganizationStatement => 100482667627879105576838123552926871514979786262516974223360
  | .AlterTableDropClause => 100433627766186892221372630771322682000450800945491481722880
  | .AlterProjectStatement => 100482667627879105576838123552926890857792900096583769522176
  | .AlterReservationStatement => 100482667627879105576838123552926890857792900096583769522176
  | .AlterSchemaStatement => 100482667627879105576838123552926890857792900379158257860609
  | .AlterTableStatement => 100485732618961194166478016736951456047652499949711744040992
  | .AlterVectorIndexStatement => 100482667624956102302174988488523736276487430250211624091648
  | .AlterViewStatement => 100482667627879105576838124201963998174646353662895810674720
  | .ArrayLiteral => 1569275434942796418978392192387238882529262038822577766928
  | .AssertStatement => 49039858769210080798370033213699528436364632011191616000
  | .Asterisk => 366802657046699337364538148119592849033413001744
  | .BasePipeOperator => 633825300114114700748351602688
  | .BinaryOperator => 12861781551588668403551841269223917904905749045340509267034640
  | .BeginStatement => 49806106539643025227549206727274683009745267499036835840
  | .BetweenOperator => 12861781551588782580579664596198074675091340220870374698517072
  | .BooleanLiteral => 365375409353993377483479862145531667878602867216
  | .BreakContinueStatement => 49039858769210080798370034481350128646147285036138758144
  | .CallingFunction => 1096126228402262580501021451325657252386031272464
  | .CallingTableFunction => 12861781551589010940210880284425927553858380397254986747085328
  | .CallingUnnest => 12861781551589170794740056584845966120777596183566152483471952
  | .CallStatement => 49039858769210777696657487295672701409113903800732614656
  | .Constraint => 89202980794122809498135745567620900705009664
  | .CaseExpr => 365375409353993377483479862163996426350821900816
  | .CaseExprArm => 766247776141935200003013037808298488054094180332339200
  | .CaseStatement => 49039858769210080798370033213699528436364627613145104384
  | .CaseStatementArm => 766247770432944429179173513575154610256113634801352704
  | .CastArgument => 9444732965739290624000
  | .CreateFunctionStatement => 100483062721474328176650849154431358759867881521744019718664
  | .CreateIndexStatement => 100482716263730592685515800504616569736960119451583806177280
  | .CreateModelStatement => 101463464771110460728029988507662794875527614952457287761920
  | .CreateProcedureStatement => 6528234844847989414048380260613776891673849691291005443113472
  | .CreateReservationStatement => 100482667624956102302176317716757205679903127070052536287744
  | .CreateRowAccessPolicyStatement => 25160511791397664913859573648094470373292641305141721432064
  | .CreateSchemaStatement => 6528234844660917204470024687081169931281246096165837595475968
  | .CreateTableStatement => 32239243935963722868920463459945451645237112022132757006909952
  | .CreateViewStatement => 100482667624956102313065354107026659340041775061400545657344
  | .DeclareStatement => 50265853741862656191484685418875030857236761439801467469824
  | .DeleteStatement => 401783574868759604995802304967676649420328592234993590206464
  | .DifferentialPrivacyClause => 5316911983139663491615245833307422720
  | .DotOperator => 12861781551588668400764248036330840275656542204771522811265552
  | .DropStatement => 100482679597577515316929036606155423373459360200097334853632
  | .DropRowAccessPolicyStatement => 49039858769210080799699261209503787103935524666511196160
  | .ElseIfClause => 766247770432944429179173513575154591809369561360236544
  | .EmptyStruct => 730750818686719107034401070324602422792586002960
  | .ExecuteStatement => 25157446847083985530730421108582705850396605064921250529280
  | .ExportDataStatement => 6427801216894730312248652056309847249280721508242986257875456
  | .ExportModelStatement => 100482667624956102302176317716519521192360334057271904436224
  | .ExtractArgument => 1532495540865888858358347027150309626340596891212840960
  | .ForSystemTimeAsOfClause => 18446744073709551616
  | .ForStatement => 49039858769210080798370033214956811270317238618618331136
  | .FromStatement => 3213925128377115136574076548093022384434987883861077418574352
  | .FunctionChain => 12861781551588668400764248036330840275656542204771522811265552
  | .GrantStatement => 52104849853796353901827875025920977410071993183643893760
  | .GroupByExprs => 8192
  | .GroupedIdentWithOptions => 730750818665451459101842416358141509827966271488
  | .GroupedExpr => 12861781551589010940210497466682011854685576859924381128720912
  | .GroupedExprs => 1096126227998177188652763624537212264742083625472
  | .GroupedPattern => 730750818665451459101842416358141509827966271488
  | .GroupedStatement => 16075706680153198286362950856034168094776785219422023850131984
  | .GroupedType => 1569275434577421009624398814903759020383730370943974899712
  | .GroupedTypeDeclarationOrConstraints => 730750818665451459101842416358141509827966271488
  | .KeywordSequence => 41538374868278621028243970633760768
  | .KeywordWithExpr => 18446744073709551616
  | .KeywordWithType => 1569275433846670190958947355801916604025588861116008628224
  | .KeywordWithGroupedXXX => 604462909807314587353088
  | .KeywordWithStatement => 187072209578355573530071658587684226515959365500928
  | .Identifier => 12861781551588645564801164740952460933477379342425393436033552
  | .IdentWithOptions => 22835963088612290362481842654477574370630828032
  | .IfStatement => 49806106539643025227549206727274683009731756700423159808
  | .InsertStatement => 49231420711818316905664826621803878008719352527354593280
  | .IntervalLiteral => 9194973610570742504143459646381717265690846822852985360
  | .InOperator => 12861781551588668400764248119407590012213784261259464078787088
  | .IsDistinctFromOperator => 12861781551588668400764248119407590012251563193157605612585488
  | .JoinOperator => 12886889862748878444292269953069263898172755631855150559134224
  | .JoinPipeOperator => 25108406941546723055344492113757134415224068816161099218944
  | .LimitClause => 664613997892457954898647603849723904
  | .LimitPipeOperator => 664614631717758050566604278491774976
  | .LoadStatement => 28924933836520594169848371514295297295773613678387328209911808
  | .LoopStatement => 49039858769210080798370033213699528417917883539435552768
  | .MatchRecognizeClause => 536871440
  | .MatchRecognizeConfig => 6576757400704025160323360478545587223518725013504
  | .MatchRecognizePipeOperator => 536871440
  | .MergeStatement => 25157470745558759165656268803232256372909803595653024055296
  | .MultiTokenIdentifier => 12861781551588280189391832015222910012269200271670479452897808
  | .NumericLiteral => 365375409353993377483479862145531667878602867216
  | .NullLiteral => 365375409353993377483479862145531667878602867216
  | .OverClause => 803469022129495137770981046170581301261101496891396417650688
  | .OverwritePartitionsClause => 680564733841879344778388444121885835264
  | .Parameter => 12861781551588645564801164740952460933477379342425393436033552
  | .PatternClause => 21778071482940061661655974875633165533184
  | .PatternQuantifier => 22300745210213291073239080436841978380943360
  | .PipeStatement => 16075706679965418161928970591046379180229366110220647917421072
  | .PivotConfig => 730750818665451459103080358758610131537688002560
  | .PivotOperator => 536871440
  | .PivotPipeOperator => 633825300114114700748888474128
  | .RaiseStatement => 25157446800315933136141527726044365192827339661395573604352
  | .RangeLiteral => 1569275434212045600312940733285396466171120528994611495440
  | .RenameColumnClause => 3064991081731777716716694054397332432806648578482110464
  | .RepeatStatement => 12603243329542571608469948879629032360622628772467504578560
  | .RevokeStatement => 49039858772064576185111180971620396821766377896438398976
  | .SelectPipeOperator => 803469022129495137770981046171215126561215611592144769253376
  | .SelectStatement => 4419128661571357844624387227634053044477551708040402871255568
  | .SetOperator => 3213925128377137972537202384040693340871499531585724723765776
  | .SetStatement => 49039858769210080798370033213699528436364627613145104384
  | .SingleTokenStatement => 49039858769210080798370033213699528417917883539435552768
  | .StringLiteral => 365375409353993377483479862145531667878602867216
  | .StructLiteral => 1569275434942796418978392192387238882529262038822577766928
  | .TableSampleClause => 2993155353253689176481146538007410534062664435367936
  | .TableSamplePipeOperator => 633825904577024508062938955776
  | .TableSampleRatio => 730750905777737390862089063000487756434337955840
  | .Template => 12861781551588645564801164740952460933477379342425393436033552
  | .TrainingDataCustomHolidayClause => 98079715346167705600385668839462204109740813664896679936
  | .TransactionStatement => 441358717230877628538106872164178679424315098818437709824
  | .TruncateStatement => 49075776633449125068487806972148363789408947737611730944
  | .Type => 4707826301540100127034355764289949912646373118183230930952
  | .TypeDeclaration => 1569275433846670190958947355804392484104159621665941094400
  | .UnaryOperator => 388211372437288735580412437656723590060726813200
  | .Unknown => 365375409353993377483479862145531667878602867216
  | .UndropStatement => 100482667624956102302171000804536381528868718829030783057920
  | .UnionPipeOperator => 5192930683834941743231253270765568
  | .UnpivotOperator => 536871440
  | .UnpivotPipeOperator => 633825300114114700748888474128
  | .UnpivotConfig => 730750818665451459103080358777056875611397554176
  | .UpdateStatement => 401783574871682608270464110804084019085761158274305455292416
  | .WhenClause => 766247770432944429262574781865370260592640658379898944
  | .WhileStatement => 49039858769210080798370033213699528417918024277192343552
  | .WindowExpr => 803469022129495137770981046170581301261101496891396551868928
  | .WindowFrameClause => 4160
  | .WindowSpecification => 730750829597043265624424713319030827037417799680
  | .WithClause => 44601490397061246283071436545296723011960832
  | .WithOffsetClause => 664613997892457936451903530140172816
  | .WithPipeOperator => 44601490397061246283071436545296723011960832
  | .WithPartitionColumnsClause => 33554432
  | .WithQuery => 187072209578355573530071658587684226515959499719168
  | .XXXByExprs => 8192
  | _ => 0

/-- Keys that may hold an array. -/
def allowV : NodeType → Nat
  | .AccessOperator => 12259964326927110867199088286751103350093470729351725056
  | .AddColumnClause => 12259964326927110866866781287959616886778191498644029440
  | .AddConstraintClause => 12259964326927110866866781287804874381867518964281638912
  | .AggregatePipeOperator => 12259964326927110866866781287804874418761007111700742144
  | .AlterColumnStatement => 12259964326927110866866781287882245634326232999902838784
  | .AlterBICapacityStatement => 12259964326927110866866781287804874381867518964281638912
  | .AlterModelStatement => 12259964326927110866866781287882245634322855231462834176
  | .AlterOrganizationStatement => 12259964326927110866866781287804874381867518964281638912
  | .AlterTableDropClause => 12259964326927110866866781287882245634322855231462834176
  | .AlterProjectStatement => 12259964326927110866866781287804874381867518964281638912
  | .AlterReservationStatement => 12259964326927110866866781287804874381867518964281638912
  | .AlterSchemaStatement => 12259964326927110866866781287882245634322855231462834176
  | .AlterTableStatement => 12259964327640734713219761228411388619048165749607628806
  | .AlterVectorIndexStatement => 12259964326927110866866781287882245634322855231462834176
  | .AlterViewStatement => 12259964326927110866866781287882245634322855231462834176
  | .ArrayLiteral => 12259964326927110867199088286751103386986958876770828288
  | .AssertStatement => 12259964326927110866866781287804874381867518964281638912
  | .Asterisk => 12259964326927110867199088286751103350093470729351725056
  | .BasePipeOperator => 12259964326927110866866781287804874418761007111700742144
  | .BinaryOperator => 12259964326927110867199088286751103350093470729351725056
  | .BeginStatement => 12260338471346267578013841431122049759543922919867416576
  | .BetweenOperator => 12259964326927110867199088286751103350093470729351725056
  | .BooleanLiteral => 12259964326927110867199088286751103350093470729351725056
  | .BreakContinueStatement => 12259964326927110866866781287804874381867518964281638912
  | .CallingFunction => 12259964326927110867199088287060588359914815798076506240
  | .CallingTableFunction => 12259964326927110867199088287060588359914815798076506240
  | .CallingUnnest => 12259964326927110867199088287060588359914815798076506240
  | .CallStatement => 12259964326927110866866781287804874381867518964281638912
  | .Constraint => 12259964326927110866866781287959616886778191498644029440
  | .CaseExpr => 12259964326927110867199088286751103350093470729351725312
  | .CaseExprArm => 12259964326927110866866781287804874381867518964281638912
  | .CaseStatement => 12259964326927110866866781287804874381903547761300603136
  | .CaseStatementArm => 12260338471346267578013841431122049750320550883012640768
  | .CastArgument => 12259964326927110866866781287804874381867518964281638912
  | .CreateFunctionStatement => 12259964326927110877500605254238943870008656776979808256
  | .CreateIndexStatement => 12259964326927110877500605254238943870008647980886786048
  | .CreateModelStatement => 12259964326927110877500605254238943870008647980886786048
  | .CreateProcedureStatement => 12259964326927110877500605254238943870008647980886786048
  | .CreateReservationStatement => 12259964326927110866866781287804874381867518964281638912
  | .CreateRowAccessPolicyStatement => 100445887730513819332250131376576901601507695759405438992384
  | .CreateSchemaStatement => 12259964326927110866866781287959616886778191498644029440
  | .CreateTableStatement => 12259964326927110877500605254238943870008647980886786048
  | .CreateViewStatement => 12259964326927110877500605254238943870008647980886786048
  | .DeclareStatement => 12259964326927110866866781287843560008095187097872236544
  | .DeleteStatement => 12259964326927110866866781287804874381867518964281638912
  | .DifferentialPrivacyClause => 12259964326927110866866781287804874381867518964281638912
  | .DotOperator => 12259964326927110867199088286751103350093470729351725056
  | .DropStatement => 12259964326927110866866781287882245634322855231462834176
  | .DropRowAccessPolicyStatement => 100445887730513819332239497552610544903272009966656015040512
  | .ElseIfClause => 12259964326927110866866781287804874381867518964281638912
  | .EOF => 5070602400912917605986812821504
  | .EmptyStruct => 12259964326927110867199088286751103350093470729351725056
  | .ExecuteStatement => 12259964326927110866866781287804874381867518964281638912
  | .ExportDataStatement => 12259964326927110866866781287804874381867518964281638912
  | .ExportModelStatement => 12259964326927110866866781287804874381867518964281638912
  | .ExtractArgument => 12259964326927110866866781287804874381867518964281640960
  | .ForSystemTimeAsOfClause => 12265950637633618245219743580879680277116029663977668608
  | .ForStatement => 12259964326927110866866781287804874381939576558319566848
  | .FromStatement => 12259964326927110867199088286751103350093470729351725056
  | .FunctionChain => 12259964326927110867199088286751103350093470729351725056
  | .GrantStatement => 12259964509614815533229646063265478471402896421273206784
  | .GroupByExprs => 12259964326927110866866781287814545825317924145098391552
  | .GroupedIdentWithOptions => 12259964326927110866866781287843560008095187097872236544
  | .GroupedExpr => 12259964326927110867199088286751103350093470729351725056
  | .GroupedExprs => 12259964326927110866866781287804874418761007111700742144
  | .GroupedPattern => 12261460904603781267597987741196899167629397905536712704
  | .GroupedStatement => 12259964326927110867199088286751103350093470729351725056
  | .GroupedType => 12259964326927110866866781287804874381867518964281638912
  | .GroupedTypeDeclarationOrConstraints => 12259964326927110866866781287804874381867519239159545856
  | .Keyword => 12259964326927110866866781287804874381867518964281638912
  | .KeywordSequence => 12259964326927110866866781287804874381867518964281638912
  | .KeywordWithExpr => 12259964326927110866866781287804874381867518964281638912
  | .KeywordWithExprs => 12259964326927110866866781287804874418761007111700742144
  | .KeywordWithType => 12259964326927110866866781287804874381867518964281638912
  | .KeywordWithGroupedXXX => 12259964326927110866866781287804874381867518964281638912
  | .KeywordWithStatement => 12259964326927110866866781287804874381867518964281638912
  | .KeywordWithStatements => 12260338471346267578013841431122049750320550883012640768
  | .Identifier => 12259964326927110867199088286751103350093470729351725056
  | .IdentWithOptions => 36779892980781332600600333722209821319767344919219273728
  | .IfStatement => 12259964326927110866866781287804874382020641351612235776
  | .InsertStatement => 12259964326927110866866781287804874381867518964281638912
  | .IntervalLiteral => 12259964326927110867199088286751103350093470729351725056
  | .InOperator => 12259964326927110867199088286751103350093470729351725056
  | .IsDistinctFromOperator => 12259964326927110867199088286751103350093470729351725056
  | .JoinOperator => 12259964326927110866866781287804874381867518964281638912
  | .JoinPipeOperator => 12259964326927110866866781287804874418761007111700742144
  | .LimitClause => 12259964326927110866866781287804874381867518964281638912
  | .LimitPipeOperator => 12259964326927110866866781287804874418761007111700742144
  | .LoadStatement => 12259964326927110866866781287804874381867518964281638912
  | .LoopStatement => 12260338471346267578013841431122049750608781259164352512
  | .MatchRecognizeClause => 12259964326927110866866781287804874381867518964281638912
  | .MatchRecognizeConfig => 12259964326927110866866781287804874381867518964281638912
  | .MatchRecognizePipeOperator => 12259964326927110866866781287804874381867518964281638912
  | .MergeStatement => 200879515496700711553612128323933130189657241741813386051584
  | .MultiTokenIdentifier => 36779892980781332600932640721156050287993296684289359872
  | .NumericLiteral => 12259964326927110867199088286751103350093470729351725056
  | .NullLiteral => 12259964326927110867199088286751103350093470729351725056
  | .OrPattern => 12259964349763073950162159667147053544729865093656870912
  | .OverClause => 12259964326927110866866781287804874381867518964281638912
  | .OverwritePartitionsClause => 12259964326927110866866781287804874381867518964281638912
  | .Parameter => 12259964326927110867199088286751103350093470729351725056
  | .Pattern => 12261460904603737711455021861073575855679646639205646336
  | .PatternClause => 12259964326927110866866781287804874381867518964281638912
  | .PatternQuantifier => 12259964326927110866866781287804874381867518964281638912
  | .PipeStatement => 12259964326927110867199088286751103350093470729351725056
  | .PivotConfig => 12259964326927110866866781287804874418761007111700742144
  | .PivotOperator => 12259964326927110866866781287804874381867518964281638912
  | .PivotPipeOperator => 12259964326927110866866781287804874381867518964281638912
  | .RaiseStatement => 12259964326927110866866781287804874381867518964281638912
  | .RangeLiteral => 12259964326927110867199088286751103350093470729351725056
  | .RenameColumnClause => 12259964326927110866866781287804874381867518964281638912
  | .RepeatStatement => 12260338471346267578013841431122049750897011635316064256
  | .RevokeStatement => 12259964509614815533229646063265478471402896421273206784
  | .SelectPipeOperator => 12259964326927110866866781287804874418761007111700742144
  | .SelectStatement => 12259964326927110867199088286751103386986958876770829312
  | .SetOperator => 12259964326927110867199088286751103350093470729351725056
  | .SetStatement => 12259964326927110866866781287804874381867518964281638912
  | .SingleTokenStatement => 12259964326927110866866781287804874381867518964281638912
  | .StringLiteral => 12259964326927110867199088286751103350093470729351725056
  | .StructLiteral => 12259964326927110867199088286751103386986958876770828288
  | .Symbol => 12259964326927110866866781287804874381867518964281638912
  | .TableSampleClause => 12259964326927110866866781287804874381867518964281638912
  | .TableSamplePipeOperator => 12259964326927110866866781287804874381867518964281638912
  | .TableSampleRatio => 12259964326927110866866781287804874381867518964281638912
  | .Template => 12259964326927110867199088286751103350093470729351725056
  | .TrainingDataCustomHolidayClause => 12259964326927110866866781287804874381867518964281638912
  | .TransactionStatement => 12259964326927110866866781287804874381867518964281638912
  | .TruncateStatement => 12259964326927110866866781287804874381867518964281638912
  | .Type => 12259964326927110867032934787277988865980494846816681984
  | .TypeDeclaration => 12259964326927110866866781287804874381867518964281638912
  | .UnaryOperator => 12259964326927110867199088286751103350093470729351725056
  | .Unknown => 12259964326927110867199088286751103350093470729351725056
  | .UndropStatement => 12259964326927110866866781287959616886778191498644029440
  | .UnionPipeOperator => 12259964326927110866866781287804874418761007111700742144
  | .UnpivotOperator => 12259964326927110866866781292756634539009040063878135808
  | .UnpivotPipeOperator => 12259964326927110866866781287804874381867518964281638912
  | .UnpivotConfig => 12259964326927110866866781287804874381867518964281638912
  | .UpdateStatement => 12259964326927110866866781287804874381867518964281638912
  | .WhenClause => 12259964326927110866866781287804874381867518964281655296
  | .WhileStatement => 12259964326927110866866781287804874383020440468888485888
  | .WindowClause => 1606950304223317202652828959122450407396584861301757116940288
  | .WindowExpr => 12259964326927110866866781287804874381867518964281638912
  | .WindowFrameClause => 12260057863031900044653546323634168223998791342473871360
  | .WindowSpecification => 12259964326927110866866781287804874381867518964281638912
  | .WithClause => 12259964326932686053166413943590258311435681054658134016
  | .WithOffsetClause => 12259964326927110866866781287804874381867518964281638912
  | .WithPipeOperator => 12259964326932686053166413943590258311435681054658134016
  | .WithPartitionColumnsClause => 12259964326927116311384652022820289795861237872573022208
  | .WithQuery => 12259964326927110866866781287804874381867518964281638912
  | .XXXByExprs => 12259964326927110866866781287804874418761007111700742144
  | _ => 0

/-- Keys that must be present. -/
def needed : NodeType → Nat
  | .AccessOperator => 753586781748746837481184595521003855957341503488
  | .AddColumnClause => 103572178633880232603290525482926495865688864833656569462784
  | .AlterColumnStatement => 100433627766186892221372630771322682000450800945491347505152
  | .AlterBICapacityStatement => 100433627769109895496039753519713191329374982213044333969408
  | .AlterModelStatement => 100433627769109895496039753519713191329374982213044333969408
  | .AlterOrganizationStatement => 100433627769109895496039753519713171986561868378977538670592
  | .AlterTableDropClause => 100433627766186892221372630771322662657637687111424552206336
  | .AlterProjectStatement => 100433627769109895496039753519713171986561868378977538670592
  | .AlterReservationStatement => 100433627769109895496039753519713191329374982213044333969408
  | .AlterSchemaStatement => 100433627766186892221372630771322682000450800945491347505152
  | .AlterTableStatement => 100433627766186892221372630771322682000450800945491347505152
  | .AlterVectorIndexStatement => 100433627766186892221376618455310036748069512366672188538880
  | .AlterViewStatement => 100433627766186892221372630771322682000450800945491347505152
  | .ArrayLiteral => 730750818665451459101842416395034997975385374720
  | .AssertStatement => 18446744073709551616
  | .BinaryOperator => 22835963083295378379342179162862346129375232000
  | .BeginStatement => 18014398509481984
  | .BetweenOperator => 137015778499772168864005056718821957039994961984
  | .CallingFunction => 730750818665451459101842567473868961656613109760
  | .CallingTableFunction => 730750818665451459101842567473868961656613109760
  | .CallStatement => 696898287454081973172991196020261297061888
  | .Constraint => 316912650057057350374175801344
  | .CaseExpr => 18014398509482240
  | .CaseExprArm => 5708990770823839524233143877797980545530986496
  | .CaseStatement => 36028797018964224
  | .CaseStatementArm => 374144419156711147060143317175368453031918731001856
  | .CastArgument => 196608
  | .CreateFunctionStatement => 100433627766186892221372630771322682604913710752805934858240
  | .CreateIndexStatement => 100433675656672544280400783697663065363485692838149204475904
  | .CreateModelStatement => 100433627766186892221372630771322682000450800945491347505152
  | .CreateProcedureStatement => 100433627766186892221372630771322682604913710752805934858240
  | .CreateReservationStatement => 100433627766186892221372630771322682000450800945491347505152
  | .CreateRowAccessPolicyStatement => 125542034707733615276717117692149132581913718151125177204736
  | .CreateSchemaStatement => 100433627766186892221372630771322682000450800945491347505152
  | .CreateTableStatement => 100433627766186892221372630771322682000450800945491347505152
  | .CreateViewStatement => 100433627766186892221372630771322682000450800945491347505152
  | .DeclareStatement => 38685626227668133590597632
  | .DeleteStatement => 401734535009990394915003934934462949854131742488496992944128
  | .DifferentialPrivacyClause => 17592186044416
  | .DotOperator => 22835963083295378379342179162862346129375232000
  | .DropStatement => 100433627766186892221372630771322682000450800945491347505152
  | .DropRowAccessPolicyStatement => 100433627766186892221373959999318447573510590918484832550912
  | .ElseIfClause => 766247770432944429179173513575154591809369561360236544
  | .EmptyStruct => 730750818665451459101842416358141509827966271488
  | .ExecuteStatement => 46768052394588893382518533616940699319127290937344
  | .ExportDataStatement => 5316911983139663491615228275481117184
  | .ExportModelStatement => 100433627766186892221372630771322682000450800945491347505152
  | .ExtractArgument => 442721857769029238784
  | .ForSystemTimeAsOfClause => 5986310706507378352962293074805913695254773405581312
  | .ForStatement => 1257282852471412673220706304
  | .FromStatement => 18446744073709551616
  | .FunctionChain => 22835963083295378379342179162862346129375232000
  | .GrantStatement => 3064991267273977769820706587682053081689487101199908864
  | .GroupByExprs => 8192
  | .GroupedIdentWithOptions => 730750818665451459101881101984369177961556869120
  | .GroupedExpr => 730750818665451459101842416376588253901675823104
  | .GroupedExprs => 730750818665451459101842416358141509827966271488
  | .GroupedPattern => 1497308427489066182665555234441143903388769221345280
  | .GroupedStatement => 187802960397021024989173501004042368025787331772416
  | .GroupedType => 1569275434577421009624398814903759020383730370943974899712
  | .GroupedTypeDeclarationOrConstraints => 730750818665451459101842416358141509827966271488
  | .KeywordWithExpr => 18446744073709551616
  | .KeywordWithExprs => 36893488147419103232
  | .KeywordWithType => 1569275433846670190958947355801916604025588861116008628224
  | .KeywordWithGroupedXXX => 604462909807314587353088
  | .KeywordWithStatement => 187072209578355573530071658587684226515959365500928
  | .KeywordWithStatements => 374144419156711147060143317175368453031918731001856
  | .IfStatement => 766247770432944429179173513575154591953484749436092416
  | .InsertStatement => 9903520314283042199192993792
  | .IntervalLiteral => 18446744211148505088
  | .InOperator => 22835963083295378379342179162862346129375232000
  | .IsDistinctFromOperator => 22835963083295378379342216941794244270909030400
  | .JoinOperator => 22835963083295378379342179162862346129375232000
  | .LimitClause => 18446744073709551616
  | .LoadStatement => 19826497368771317729731805184
  | .LoopStatement => 288230376151711744
  | .MatchRecognizeClause => 536870912
  | .MatchRecognizeConfig => 730750818665451459101842416358141509827966271488
  | .MatchRecognizePipeOperator => 536870912
  | .MergeStatement => 225975686419163333527603160312644075119138693850564306927616
  | .MultiTokenIdentifier => 24519928653854221733733552434404946937899825954937634816
  | .OrPattern => 22835963083295378379342179162862346129375232000
  | .OverClause => 803469022129495137770981046170581301261101496891396417650688
  | .OverwritePartitionsClause => 2417851639229258349412352
  | .Pattern => 1496577676626844588240573268701473812127674924007424
  | .PatternClause => 21778071482940061661655974875633165533184
  | .PatternQuantifier => 22300745198530623141535718272648361505980416
  | .PipeStatement => 22835963083295378379342179162862346129375232000
  | .PivotConfig => 730750818665451459103080358795503619685107105792
  | .PivotOperator => 536870912
  | .PivotPipeOperator => 536870912
  | .RangeLiteral => 1569275433846670190958947355801916604025588861116008628224
  | .RenameColumnClause => 3064991081731777716716694054319961180351312311166697472
  | .RepeatStatement => 12554203844917780684382725906558650007573740381599103451136
  | .RevokeStatement => 185542200053104012533381472493383871813994414080
  | .SelectStatement => 36893488147419103232
  | .SetOperator => 22835963083295378379342179162862416498119409664
  | .SetStatement => 18446744073709551616
  | .StructLiteral => 730750818665451459101842416395034997975385374720
  | .TableSampleClause => 2993155353253689176481146538007410534062664435367936
  | .TableSampleRatio => 730750905777737390862089063000487756434337955840
  | .TrainingDataCustomHolidayClause => 98079715346167705600385668839462204109740813664896679936
  | .TruncateStatement => 35917864239044270117773758448835371491064198176178176
  | .TypeDeclaration => 1569275433846670190958947355801916604025588861116008628224
  | .UnaryOperator => 22835963083295358096932575511191922182123945984
  | .UndropStatement => 100433627766186892221372630771322682000450800945491347505152
  | .UnpivotOperator => 536870912
  | .UnpivotPipeOperator => 536870912
  | .UnpivotConfig => 730750818665451459103080358777056875611397554176
  | .UpdateStatement => 2923003274661805836407369665432566039311865085952
  | .WhenClause => 766247770432944429179498032128813018536152717112377344
  | .WhileStatement => 1153062242363637760
  | .WindowClause => 1606938044258990275541962092341162602522202993782792835301376
  | .WindowExpr => 803469022129495137770981046170581301261101496891396417651200
  | .WindowSpecification => 730750818665451459101842416358141509827966271488
  | .WithClause => 5575186299632655785383929568162090376495104
  | .WithOffsetClause => 664613997892457936451903530140172288
  | .WithPipeOperator => 5575186299632655785383929568162090376495104
  | .WithPartitionColumnsClause => 5444517870735015415413993718908291383296
  | .WithQuery => 187072209578355573530071658587684226515959365501440
  | .XXXByExprs => 36893488147419111424
  | _ => 0

/-- Classes of the token (bit 301: no token). -/
def allowT : NodeType → Nat
  | .AccessOperator => 3450873173395281893717377931138512726225554486085193277581262111899648
  | .AddColumnClause => 2097152
  | .AddConstraintClause => 2097152
  | .AggregatePipeOperator => 8388608
  | .AlterColumnStatement => 33554432
  | .AlterBICapacityStatement => 33554432
  | .AlterModelStatement => 33554432
  | .AlterOrganizationStatement => 33554432
  | .AlterTableDropClause => 37778931862957161709568
  | .AlterProjectStatement => 33554432
  | .AlterReservationStatement => 33554432
  | .AlterSchemaStatement => 33554432
  | .AlterTableStatement => 33554432
  | .AlterVectorIndexStatement => 33554432
  | .AlterViewStatement => 33554432
  | .AssertStatement => 2147483648
  | .Asterisk => 16
  | .BasePipeOperator => 107839786681156786594685675152956219350017577554706197576896286294016
  | .BinaryOperator => 289873346565203679072259746929259255970600437244991651642132782497397427
  | .BeginStatement => 68719476736
  | .BetweenOperator => 137438953472
  | .BreakContinueStatement => 85735205728127073802439674974204592128
  | .CallingFunction => 4
  | .CallingTableFunction => 4
  | .CallStatement => 17592186044416
  | .CaseExpr => 140737488355328
  | .CaseExprArm => 53919893334301279589334030174039261347274288920639008688121543917568
  | .CaseStatement => 140737488355328
  | .CaseStatementArm => 53919893334301279589334030174039261347274288920639008688121543917568
  | .CreateFunctionStatement => 1152921504606846976
  | .CreateIndexStatement => 1152921504606846976
  | .CreateModelStatement => 1152921504606846976
  | .CreateProcedureStatement => 1152921504606846976
  | .CreateReservationStatement => 1152921504606846976
  | .CreateRowAccessPolicyStatement => 1152921504606846976
  | .CreateSchemaStatement => 1152921504606846976
  | .CreateTableStatement => 1152921504606846976
  | .CreateViewStatement => 1152921504606846976
  | .DeclareStatement => 295147905179352825856
  | .DeleteStatement => 2361183241434822606848
  | .DifferentialPrivacyClause => 862718293348820473429344482784628181556388621521298319395315527974912
  | .DotOperator => 256
  | .DropStatement => 37778931862957161709568
  | .DropRowAccessPolicyStatement => 37778931862957161709568
  | .ElseIfClause => 151115727451828646838272
  | .EmptyStruct => 4
  | .ExecuteStatement => 38685626227668133590597632
  | .ExportDataStatement => 154742504910672534362390528
  | .ExportModelStatement => 154742504910672534362390528
  | .ForSystemTimeAsOfClause => 39614081257132168796771975168
  | .ForStatement => 39614081257132168796771975168
  | .FromStatement => 316912650057057350374175801344
  | .FunctionChain => 256
  | .GrantStatement => 2535301200456458802993406410752
  | .GroupByExprs => 5070602400912917605986812821504
  | .GroupedIdentWithOptions => 4
  | .GroupedPattern => 4
  | .GroupedType => 2048
  | .KeywordWithType => 6129982163463555433433388108601236734474956488734408704
  | .IfStatement => 162259276829213363391578010288128
  | .InsertStatement => 20769187434139310514121985316880384
  | .IntervalLiteral => 83076749736557242056487941267521536
  | .InOperator => 649037107316853453566312041152512
  | .IsDistinctFromOperator => 332306998946228968225951765070086144
  | .LimitClause => 680564733841876926926749214863536422912
  | .LimitPipeOperator => 680564733841876926926749214863536422912
  | .LoadStatement => 1361129467683753853853498429727072845824
  | .MatchRecognizeClause => 10889035741470030830827987437816582766592
  | .MatchRecognizePipeOperator => 10889035741470030830827987437816582766592
  | .MergeStatement => 87112285931760246646623899502532662132736
  | .OrPattern => 55213970774324510299478046898216203619608871777363092441300193790394368
  | .OverClause => 45671926166590716193865151022383844364247891968
  | .PatternClause => 730750818665451459101842416358141509827966271488
  | .PatternQuantifier => 27606985387162255149739023449108101809804435888681546220650096895197184
  | .PipeStatement => 110427941548649020598956093796432407239217743554726184882600387580788736
  | .PivotOperator => 1461501637330902918203684832716283019655932542976
  | .PivotPipeOperator => 1461501637330902918203684832716283019655932542976
  | .RaiseStatement => 374144419156711147060143317175368453031918731001856
  | .RenameColumnClause => 23945242826029513411849172299223580994042798784118784
  | .RevokeStatement => 12259964326927110866866776217202473468949912977468817408
  | .SelectPipeOperator => 6277101735386680763835789423207666416102355444464034512896
  | .SetStatement => 12554203470773361527671578846415332832204710888928069025792
  | .SingleTokenStatement => 3064991081731777716716694054300620728420719679189811200
  | .TableSampleClause => 1606938044258990275541962092341162602522202993782792835301376
  | .TableSamplePipeOperator => 1606938044258990275541962092341162602522202993782792835301376
  | .TransactionStatement => 49039857307708443467467104868809893875808659177849487360
  | .TruncateStatement => 6582018229284824168619876730229402019930943462534319453394436096
  | .UnaryOperator => 441711766272532577544069053460982556175854468465873677685279319654400160
  | .UndropStatement => 52656145834278593348959013841835216159447547700274555627155488768
  | .UnpivotOperator => 421249166674228746791672110734681729275580381602196445017243910144
  | .UnpivotPipeOperator => 421249166674228746791672110734681729275580381602196445017243910144
  | .UpdateStatement => 1684996666696914987166688442938726917102321526408785780068975640576
  | .WhenClause => 53919893334301279589334030174039261347274288845081144962207220498432
  | .WhileStatement => 215679573337205118357336120696157045389097155380324579848828881993728
  | .WindowClause => 431359146674410236714672241392314090778194310760649159697657763987456
  | .WindowFrameClause => 392319606750505861162030959237113501743303279116464160768
  | .WindowSpecification => 4
  | .WithClause => 862718293348820473429344482784628181556388621521298319395315527974912
  | .WithOffsetClause => 862718293348820473429344482784628181556388621521298319395315527974912
  | .WithPipeOperator => 862718293348820473429344482784628181556388621521298319395315527974912
  | .WithPartitionColumnsClause => 862718293348820473429344482784628181556388621521298319395315527974912
  | .XXXByExprs => 184114952359068824656518890058985998493281157120
  | .TypeDeclaration => 2 ^ 302 - 1
  | _ => 2 ^ 301 - 1

/-- Restricted children: index of the key and mask of the node types. -/
def restr : NodeType → List (Nat × Nat)
  | .AccessOperator => [(9, 1180591620717411303424)]
  | .AlterBICapacityStatement => [(160, 2658455991569831745807614120560689152)]
  | .AlterModelStatement => [(160, 2658455991569831745807614120560689152)]
  | .AlterOrganizationStatement => [(160, 2658455991569831745807614120560689152)]
  | .AlterProjectStatement => [(160, 2658455991569831745807614120560689152)]
  | .AlterReservationStatement => [(160, 2658455991569831745807614120560689152)]
  | .AlterSchemaStatement => [(160, 2658455991569831745807614120560689152)]
  | .AlterTableStatement => [(160, 2658455991569831745807614120560689152)]
  | .AlterVectorIndexStatement => [(160, 2658455991569831745807614120560689152)]
  | .AlterViewStatement => [(160, 2658455991569831745807614120560689152)]
  | .ArrayLiteral => [(9, 1180591620717411303424)]
  | .AssertStatement => [(160, 2658455991569831745807614120560689152)]
  | .Asterisk => [(9, 1180591620717411303424)]
  | .BinaryOperator => [(9, 1180591620717411303424)]
  | .BeginStatement => [(160, 2658455991569831745807614120560689152)]
  | .BetweenOperator => [(9, 1180591620717411303424)]
  | .BooleanLiteral => [(9, 1180591620717411303424)]
  | .BreakContinueStatement => [(160, 2658455991569831745807614120560689152)]
  | .CallingFunction => [(9, 1180591620717411303424)]
  | .CallingTableFunction => [(4, 302231454903657293676544), (9, 1180591620717411303424)]
  | .CallingUnnest => [(4, 302231454903657293676544), (9, 1180591620717411303424)]
  | .CallStatement => [(160, 2658455991569831745807614120560689152)]
  | .CaseExpr => [(9, 1180591620717411303424)]
  | .CaseStatement => [(160, 2658455991569831745807614120560689152)]
  | .CreateFunctionStatement => [(160, 2658455991569831745807614120560689152)]
  | .CreateIndexStatement => [(160, 2658455991569831745807614120560689152)]
  | .CreateModelStatement => [(160, 2658455991569831745807614120560689152)]
  | .CreateProcedureStatement => [(160, 2658455991569831745807614120560689152)]
  | .CreateReservationStatement => [(160, 2658455991569831745807614120560689152)]
  | .CreateRowAccessPolicyStatement => [(160, 2658455991569831745807614120560689152)]
  | .CreateSchemaStatement => [(160, 2658455991569831745807614120560689152)]
  | .CreateTableStatement => [(160, 2658455991569831745807614120560689152)]
  | .CreateViewStatement => [(160, 2658455991569831745807614120560689152)]
  | .DeclareStatement => [(160, 2658455991569831745807614120560689152)]
  | .DeleteStatement => [(160, 2658455991569831745807614120560689152)]
  | .DotOperator => [(9, 1180591620717411303424)]
  | .DropStatement => [(160, 2658455991569831745807614120560689152)]
  | .DropRowAccessPolicyStatement => [(160, 2658455991569831745807614120560689152)]
  | .EmptyStruct => [(9, 1180591620717411303424)]
  | .ExecuteStatement => [(160, 2658455991569831745807614120560689152)]
  | .ExportDataStatement => [(160, 2658455991569831745807614120560689152)]
  | .ExportModelStatement => [(160, 2658455991569831745807614120560689152)]
  | .ForStatement => [(160, 2658455991569831745807614120560689152)]
  | .FromStatement => [(160, 2658455991569831745807614120560689152)]
  | .FunctionChain => [(9, 1180591620717411303424)]
  | .GrantStatement => [(160, 2658455991569831745807614120560689152)]
  | .GroupedExpr => [(9, 1180591620717411303424)]
  | .GroupedStatement => [(9, 1180591620717411303424), (160, 2658455991569831745807614120560689152), (201, 44601490397061246283071436545296723011960832)]
  | .KeywordSequence => [(115, 46043073207979040833536)]
  | .Identifier => [(9, 1180591620717411303424)]
  | .IfStatement => [(160, 2658455991569831745807614120560689152)]
  | .InsertStatement => [(160, 2658455991569831745807614120560689152)]
  | .IntervalLiteral => [(9, 1180591620717411303424)]
  | .InOperator => [(9, 1180591620717411303424)]
  | .IsDistinctFromOperator => [(9, 1180591620717411303424)]
  | .JoinOperator => [(4, 302231454903657293676544), (9, 1180591620717411303424)]
  | .LoadStatement => [(160, 2658455991569831745807614120560689152)]
  | .LoopStatement => [(160, 2658455991569831745807614120560689152)]
  | .MergeStatement => [(160, 2658455991569831745807614120560689152)]
  | .MultiTokenIdentifier => [(4, 302231454903657293676544), (9, 1180591620717411303424)]
  | .NumericLiteral => [(9, 1180591620717411303424)]
  | .NullLiteral => [(9, 1180591620717411303424)]
  | .Parameter => [(9, 1180591620717411303424)]
  | .PipeStatement => [(160, 2658455991569831745807614120560689152)]
  | .RaiseStatement => [(160, 2658455991569831745807614120560689152)]
  | .RangeLiteral => [(9, 1180591620717411303424)]
  | .RepeatStatement => [(160, 2658455991569831745807614120560689152)]
  | .RevokeStatement => [(160, 2658455991569831745807614120560689152)]
  | .SelectStatement => [(160, 2658455991569831745807614120560689152), (201, 44601490397061246283071436545296723011960832)]
  | .SetOperator => [(104, 124615124604836010658684501577695232), (160, 2658455991569831745807614120560689152), (201, 44601490397061246283071436545296723011960832)]
  | .SetStatement => [(160, 2658455991569831745807614120560689152)]
  | .SingleTokenStatement => [(160, 2658455991569831745807614120560689152)]
  | .StringLiteral => [(9, 1180591620717411303424)]
  | .StructLiteral => [(9, 1180591620717411303424)]
  | .Template => [(9, 1180591620717411303424)]
  | .TransactionStatement => [(160, 2658455991569831745807614120560689152)]
  | .TruncateStatement => [(160, 2658455991569831745807614120560689152)]
  | .UnaryOperator => [(9, 1180591620717411303424)]
  | .UndropStatement => [(160, 2658455991569831745807614120560689152)]
  | .UpdateStatement => [(160, 2658455991569831745807614120560689152)]
  | .WhileStatement => [(160, 2658455991569831745807614120560689152)]
  | .WithClause => [(142, 713623846352979940529142984724747568191373312)]
  | .WithOffsetClause => [(9, 1180591620717411303424), (119, 1180591620717411303424)]
  | .WithPipeOperator => [(142, 713623846352979940529142984724747568191373312)]
  | .WithQuery => [(9, 1180591620717411303424), (167, 147573952589676412928)]
  | _ => []

end Verif.AI
