import Verif.Basic
import Verif.Model.Packet
import Verif.Model.Md5
import Verif.Lemmas.Packet
import Verif.Lemmas.Values
import Verif.Props.Decode
import Verif.Props.Encode
import Verif.Props.Auth
import Verif.Props.AttributeList
import Verif.Props.Avp
import Verif.Props.Accessors
import Verif.Props.Vsa
import Verif.Props.Debug
import Verif.Props.Codec
import Verif.Props.Server
import Verif.Props.Net
import Verif.Props.Client
import Verif.Props.EndToEnd
import Verif.Props.Builds
import Verif.Props.Shipped
import Verif.Props.Dictionary
import Verif.Props.Handler
import Verif.Props.DictionaryErrors
import Verif.Props.Secret
import Verif.Props.GenerationShipped
import Verif.Props.GenerationRun
import Verif.Props.Network
import Verif.Props.NetworkProgress
import Verif.Props.ErrorText
import Verif.Props.SlowHandler
import Verif.Props.Replay
