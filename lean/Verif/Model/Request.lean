import Verif.Model.Packet
import Verif.Model.Net
/-! # `radius/src/core/request.rs` -/
namespace Radius

/-- `struct Request` — radius/src/core/request.rs:6-10. -/
structure Request where
  localAddr : SocketAddr
  remoteAddr : SocketAddr
  packet : Packet
deriving DecidableEq

namespace Request

/-- `Request::new` — radius/src/core/request.rs:13-19. -/
def new (localAddr remoteAddr : SocketAddr) (packet : Packet) : Request := { localAddr, remoteAddr, packet }

/-- `Request::get_local_addr` — radius/src/core/request.rs:21-23. -/
def getLocalAddr (self : Request) : SocketAddr := self.localAddr

/-- `Request::get_remote_addr` — radius/src/core/request.rs:25-27. -/
def getRemoteAddr (self : Request) : SocketAddr := self.remoteAddr

/-- `Request::get_packet` — radius/src/core/request.rs:29-31. -/
def getPacket (self : Request) : Packet := self.packet

end Request

end Radius
