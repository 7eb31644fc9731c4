import Verif.Props.Base64
import Verif.Props.InPlace
import Verif.Props.ReadOnly
import Verif.Props.DateOrder
import Verif.Props.IntSetLoop
import Verif.Props.Utf8Text
import Verif.Props.Pieces
import Verif.Props.Base64Pieces
import Verif.Props.Utf8
import Verif.Props.Float
import Verif.Props.Foreach
import Verif.Props.Date
import Verif.Props.IntSet
import Verif.Props.ByteArray
import Verif.Props.Integer
import Verif.Props.Fsalloc
import Verif.Props.Charstr
import Verif.Props.Url
import Verif.Props.Prioq
import Verif.Props.List
import Verif.Props.Growth
import Verif.Props.NoMemory
import Verif.Props.Stack
import Verif.Props.HashTable
import Verif.Props.Avl
import Verif.Props.Categorize
import Verif.Props.IdnaGen
import Verif.Props.Unicode
import Verif.Props.Puny
import Verif.Props.IdnaRead
import Verif.Props.Category13
import Verif.Props.Idna13
import Verif.Props.Owned
import Verif.Props.Objects
import Verif.Props.Whole
import Verif.Props.Blocks
import Verif.Props.Squeeze
import Verif.Props.Sweep
import Verif.Props.Callbacks
import Verif.Props.Cost
import Verif.Props.Utf8Chain
import Verif.Props.Errno
import Verif.Props.Strings
import Verif.Props.DataFiles
import Verif.Props.DataFiles13
import Verif.Props.Sorts
import Verif.Props.Form
import Verif.Props.Walk
import Verif.Props.Emit
import Verif.Props.EmitIdna
import Verif.Props.Emit13
import Verif.Props.EmitIdna13
import Verif.Props.HashOrder
import Verif.Props.IdnaSame
import Verif.Props.ByteArrayAny
import Verif.Props.Shipped
import Verif.Props.ShippedAll
import Verif.Props.ShippedEmit
import Verif.Props.ShippedNormal
import Verif.Props.ShippedHost
import Verif.Props.Source
import Verif.Props.SourceText
import Verif.Props.SourceUtf8
import Verif.Props.SourceCase
import Verif.Props.SourceBase64
import Verif.Props.SourceInteger
import Verif.Props.SourceList
import Verif.Props.SourceIndex
