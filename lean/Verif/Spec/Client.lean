import Verif.Model.Client
/-! # Specification vocabulary for the client: observations on traces -/
namespace Radius.Spec

/-- The datagrams handed to the network, with their destination. -/
def sentOf : List ClientEvent → List (SocketAddr × Bytes)
  | [] => []
  | .send to data :: es => (to, data) :: sentOf es
  | _ :: es => sentOf es

/-- The datagrams taken from the network. -/
def receivedOf : List ClientEvent → List Bytes
  | [] => []
  | .received d :: es => d :: receivedOf es
  | _ :: es => receivedOf es

/-- The addresses bound to. -/
def boundOf : List ClientEvent → List SocketAddr
  | [] => []
  | .bind a :: es => a :: boundOf es
  | _ :: es => boundOf es

/-- An operation was completed successfully. -/
def Await.succeeded {α : Type} : Await (Except String α) → Bool
  | .ready (.ok _) => true
  | _ => false

/-- The operations before transmission went well. -/
def Prepared (env : ClientEnv) : Prop := env.bind = .ready (.ok ()) ∧ env.connect = .ready (.ok ())

end Radius.Spec
