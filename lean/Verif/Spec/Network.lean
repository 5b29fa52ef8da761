import Verif.Spec.Join

/-!
# A network server

The other end of the air: how a LoRaWAN 1.0 network server follows one device (sections 4.3.1.5, 4.3.3, 4.4 and 6.2), and what
may happen to frames on their way. Nothing here looks at the stack's state.
-/

namespace Spec
open Uwan (Byte Bytes Block Env Ev Item txs Err)

/-- An uplink as the network side gets it. -/
structure Message where
  confirmed : Bool
  /-- MAC commands (FOpts) -/
  commands : Bytes
  port : Option Nat
  payload : Bytes
  deriving DecidableEq, Repr

/-- What the server keeps about a device: the session and the smallest uplink counter not yet used. -/
structure Server where
  nwk : Block
  app : Block
  addr : Nat
  next : Nat
  deriving DecidableEq

/-- Section 4.3.1.5: the smallest counter from `next` on whose low 16 bits are `low`. -/
def fullCount (next low : Nat) : Nat := next + (low + 65536 - next % 65536) % 65536

/-- A frame arrives: data uplink, version 0, our address, MIC under the counter made up from its low 16 bits; then the payload is
decrypted, with the network key on port 0. -/
def Server.recv (E : Env) (n : Server) (l : Bytes) : Option (Message × Server) :=
  match parse l with
  | none => none
  | some f =>
    let c := fullCount n.next f.fCnt
    if (f.mtype = 2 ∨ f.mtype = 4) ∧ f.major = 0 ∧ f.devAddr = n.addr ∧ c < 2 ^ 32 ∧
        f.mic = dataMic E n.nwk 0 n.addr c (signed l) then
      some (⟨f.mtype = 4, f.fOpts, f.port, crypt E (if f.port = some 0 then n.nwk else n.app) 0 n.addr c f.payload⟩,
        { n with next := c + 1 })
    else none

/-- Everything the server accepts out of the frames that arrive, in order. -/
def Server.serve (E : Env) : Server → List Bytes → List Message
  | _, [] => []
  | n, l :: rest =>
    match n.recv E l with
    | some (m, n') => m :: n'.serve E rest
    | none => n.serve E rest

/-- The message an accepted `uwan_send_frame` is meant to carry: the arguments of the call, and the pending MAC commands. -/
def uplinkOf (E : Env) (log : List Item) (it : Item) : Option Message :=
  match it.op with
  | .send port pld c _ =>
    if it.ret = .err .no then some ⟨c, (config E log).queue, if pld = [] then none else some port.toNat, pld⟩ else none
  | _ => none

/-- No data uplink of the device with this address: other devices' frames, join-requests, downlinks, noise. -/
def Foreign (addr : Nat) (l : Bytes) : Prop :=
  ∀ f, parse l = some f → ¬ ((f.mtype = 2 ∨ f.mtype = 4) ∧ f.major = 0 ∧ f.devAddr = addr)

/-- `Air E addr log gap seg rx ms`: while the device goes on after `log` with the operations `seg`, the network hears exactly the frames
`rx`: the frames of some of the uplinks, in order and once each, and any foreign frames; `ms` are the messages that the heard uplinks
were meant to carry. `gap` uplinks were lost in a row before; never 65536 of them. -/
inductive Air (E : Env) (addr : Nat) : List Item → Nat → List Item → List Bytes → List Message → Prop where
  | done (log : List Item) (gap : Nat) : Air E addr log gap [] [] []
  | foreign {log : List Item} {gap : Nat} {seg : List Item} {l : Bytes} {rx : List Bytes} {ms : List Message} (hf : Foreign addr l)
      (h : Air E addr log gap seg rx ms) : Air E addr log gap seg (l :: rx) ms
  | other {log : List Item} {gap : Nat} {it : Item} {seg : List Item} {rx : List Bytes} {ms : List Message}
      (hu : uplinkOf E log it = none) (h : Air E addr (log ++ [it]) gap seg rx ms) : Air E addr log gap (it :: seg) rx ms
  | lost {log : List Item} {gap : Nat} {it : Item} {seg : List Item} {rx : List Bytes} {ms : List Message} {m : Message}
      (hu : uplinkOf E log it = some m) (hg : gap + 1 < 65536) (h : Air E addr (log ++ [it]) (gap + 1) seg rx ms) :
      Air E addr log gap (it :: seg) rx ms
  | heard {log : List Item} {gap : Nat} {it : Item} {seg : List Item} {l : Bytes} {rx : List Bytes} {ms : List Message} {m : Message}
      (hu : uplinkOf E log it = some m) (ht : l ∈ txs it.ev) (h : Air E addr (log ++ [it]) 0 seg rx ms) :
      Air E addr log gap (it :: seg) (l :: rx) (m :: ms)

/-- `Sky E n log down seg Ds`: while the device goes on after `log` with the operations `seg`, it hears from the network `n` exactly the
downlinks `Ds`, with counters ahead of `down` and in step with each other; and besides that only nothing, packets with a wrong CRC,
and frames that are no data downlink for this device. -/
inductive Sky (E : Env) (n : Server) : List Item → Nat → List Item → List Downlink → Prop where
  | done (log : List Item) (down : Nat) : Sky E n log down [] []
  | nothing {log : List Item} {down : Nat} {it : Item} {seg : List Item} {Ds : List Downlink} (ho : ∀ l, outcome log it ≠ .packet l)
      (h : Sky E n (log ++ [it]) down seg Ds) : Sky E n log down (it :: seg) Ds
  | foreign {log : List Item} {down : Nat} {it : Item} {seg : List Item} {Ds : List Downlink} {l : Bytes} (ho : outcome log it = .packet l)
      (hf : l.length < 12 ∨ isDataDown l = false ∨ leNat ((l.drop 1).take 4) ≠ n.addr)
      (h : Sky E n (log ++ [it]) down seg Ds) : Sky E n log down (it :: seg) Ds
  | genuine {log : List Item} {down : Nat} {it : Item} {seg : List Item} {Ds : List Downlink} {D : Downlink} {cnt : Nat}
      (ho : outcome log it = .packet (D.build E n.nwk n.app n.addr cnt)) (hf : D.fOpts.length ≤ 15) (hs : inStep down cnt)
      (h : Sky E n (log ++ [it]) cnt seg Ds) : Sky E n log down (it :: seg) (D :: Ds)

/-- The data downlinks the application is told about with code UWAN_ERR_NO, in order: message type, port, payload. -/
def delivered (seg : List Item) : List (Nat × Byte × Option Bytes) :=
  seg.flatMap fun x => (results x.ev).filterMap fun r => if r.1 = .no then some (r.2.1.toNat, r.2.2.fPort, r.2.2.data) else none

/-- How a downlink should be told: message type 3 or 5; port and payload, or port 0 and no payload. -/
def Downlink.told (D : Downlink) : Nat × Byte × Option Bytes :=
  (if D.confirmed then 5 else 3, match D.body with | none => (0, none) | some (port, pld) => (port, some pld))

/-- Section 6.2: the server reads a join-request (23 bytes, MHDR 0, MIC under the device's AppKey), decides to answer with `J`, and starts
the session. -/
def joinServer (E : Env) (appKey : Block) (J : JoinAccept) (req : Bytes) : Option Server :=
  if req.length = 23 ∧ req.head? = some 0 ∧ req.drop 19 = (E.cmac appKey (req.take 19)).toList.take 4 then
    let nonce := leNat ((req.drop 17).take 2)
    some
      { nwk := sessionKey E appKey 1 J.appNonce J.netId nonce
        app := sessionKey E appKey 2 J.appNonce J.netId nonce
        addr := J.devAddr
        next := 0 }
  else none

end Spec
