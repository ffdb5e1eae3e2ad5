import Verif.Props.Conv
import Verif.Props.Frame
import Verif.Props.Gaptr
import Verif.Props.Ringbuf
import Verif.Props.Pq
import Verif.Props.Map
import Verif.Props.Ksl
import Verif.Props.Huffman
import Verif.Props.QpackInt
import Verif.Props.StaticTable
import Verif.Props.QpackDec
import Verif.Props.QpackEnc
import Verif.Props.QpackPair
import Verif.Props.QpackLoop
import Verif.Props.Err
import Verif.Props.Rcbuf
import Verif.Props.Balloc
import Verif.Props.Nva
import Verif.Props.Http
import Verif.Props.Outq
import Verif.Props.Control
import Verif.Props.Sched
import Verif.Props.Fair
import Verif.Props.Priority
import Verif.Props.Safety
import Verif.Props.Shutdown
import Verif.Props.Offer
import Verif.Props.Uni
import Verif.Props.Bidi
import Verif.Props.WireMsg
import Verif.Props.QpackWire
import Verif.Props.Net
import Verif.Props.Writable
import Verif.Props.Sent
import Verif.Props.Codes
import Verif.Props.CtlEnd
import Verif.Props.Duo
import Verif.Props.Endpoint
import Verif.Props.Cut
import Verif.Props.Ledger
import Verif.Props.Lives
import Verif.Props.Drain
import Verif.Props.Ctrl
import Verif.Props.Kept
import Verif.Props.Writes
import Verif.Props.Cbs
import Verif.Props.Feedback
import Verif.Props.Alone
import Verif.Props.Whole
import Verif.Props.HeaderPri
import Verif.Props.Fault
import Verif.Props.Unknown
import Verif.Props.ServerPri
import Verif.Props.EncPeer
import Verif.Props.EncDuo
import Verif.Props.Left
