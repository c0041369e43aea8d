import Verif.Model.Lib
import Verif.Model.Display
import Verif.Props.Tokenize
import Verif.Props.Lexemes
import Verif.Props.Parse
import Verif.Props.Compare
import Verif.Props.Trees
import Verif.Props.Schema
import Verif.Props.Serialize
import Verif.Props.Precedence
import Verif.Props.Order
import Verif.Props.Accept
import Verif.Props.Message
import Verif.Props.Steps
import Verif.Props.Kind
import Verif.Props.Render
import Verif.Props.Work
import Verif.Props.Expr
import Verif.Props.Block
