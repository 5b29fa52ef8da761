import Verif.Lemmas.Flow

/-! What `handle_data_msg` does with every byte string, as a case list. -/

namespace Uwan

/-- The fixed header of a data frame and everything after it. -/
structure DHdr where
  mhdr : Byte
  a0 : Byte
  a1 : Byte
  a2 : Byte
  a3 : Byte
  fctrl : Byte
  c0 : Byte
  c1 : Byte
  rest : Bytes

namespace DHdr
variable (H : DHdr)

/-- The bytes of the frame. -/
def bytes : Bytes := H.mhdr :: H.a0 :: H.a1 :: H.a2 :: H.a3 :: H.fctrl :: H.c0 :: H.c1 :: H.rest
/-- The message type bits. -/
def mtype : Byte := (H.mhdr >>> 5) &&& 7
/-- The length of FOpts. -/
def fo : Nat := (H.fctrl &&& 0xf).toNat
/-- DevAddr -/
def addr : U32 := or32 H.a0 H.a1 H.a2 H.a3
/-- FCnt -/
def fcnt : U16 := or16 H.c0 H.c1
/-- FOpts -/
def fopts : Bytes := H.rest.take H.fo
/-- Everything between FOpts and MIC: port and payload. -/
def tail : Bytes := (H.rest.drop H.fo).take (H.rest.length - 4 - H.fo)
/-- Right version and a data-down type. -/
def Typed : Prop := (H.mhdr &&& 3) = 0 ∧ (H.mtype = 3 ∨ H.mtype = 5)
/-- The early marking of the ACK flag. -/
def mark (s : St) : St := markAck s H.mtype
/-- State after taking over the counter `d`. -/
def count (s : St) (d : U32) (snr : BitVec 8) : St :=
  { H.mark s with session := { (H.mark s).session with fCntDown := d }, snr := snr }
/-- Port byte if there is one, else what was there. -/
def port (p : Byte) : Byte := H.tail.head?.getD p
/-- The four bytes computed as MIC, and the calls made. -/
def mic (E : Env) (ss : Session) (d : U32) : Bytes × List Ev :=
  calcMic E { ss with fCntDown := d } (H.bytes.take (H.bytes.length - 4)) ss.nwkSKey 1 true
/-- The MIC is right for counter `d`. -/
def MicOk (E : Env) (ss : Session) (d : U32) : Prop := H.bytes.drop (H.bytes.length - 4) = (H.mic E ss d).1
/-- The payload key. -/
def key (ss : Session) : Block := if H.tail.head? = some 0 then ss.nwkSKey else ss.appSKey
/-- Deciphered payload and calls made. -/
def plain (E : Env) (ss : Session) (d : U32) : Option Bytes × List Ev :=
  match H.tail with
  | [] => (none, [])
  | [_] => (some [], [])
  | _ :: b :: l =>
    let e := encryptPayload E { ss with fCntDown := d } (b :: l) (H.key ss) 1
    (some e.1, e.2)

end DHdr

/-- The cases of `handle_data_msg` for the received bytes `buf`. -/
inductive DataCase (E : Env) (bat : Nat → Byte) (s : St) (pkt : DlPkt) (buf : Bytes) :
    Err → St → DlPkt → List Ev → Prop where
  | short (h : buf.length < 12) : DataCase E bat s pkt buf .msgLen s pkt []
  | mhdr (H : DHdr) (hb : buf = H.bytes) (hl : 12 ≤ buf.length) (h : ¬H.Typed) :
      DataCase E bat s pkt buf .msgMhdr s pkt []
  | addr (H : DHdr) (hb : buf = H.bytes) (hl : 12 ≤ buf.length) (ht : H.Typed)
      (h : s.session.devAddr ≠ H.addr) :
      DataCase E bat s pkt buf .devAddr (H.mark s) pkt (shiftMark H.a3)
  | fopts (H : DHdr) (hb : buf = H.bytes) (hl : 12 ≤ buf.length) (ht : H.Typed)
      (ha : s.session.devAddr = H.addr) (h : buf.length < 12 + H.fo) :
      DataCase E bat s pkt buf .msgLen (H.mark s) pkt (shiftMark H.a3)
  | fcnt (H : DHdr) (hb : buf = H.bytes) (hl : 12 ≤ buf.length) (ht : H.Typed)
      (ha : s.session.devAddr = H.addr) (hf : 12 + H.fo ≤ buf.length)
      (h : nextFCntDown s.session.fCntDown H.fcnt = none) :
      DataCase E bat s pkt buf .fcnt (H.mark s) pkt (shiftMark H.a3)
  | mic (H : DHdr) (d : U32) (s2 : St) (ev1 : List Ev) (hb : buf = H.bytes) (hl : 12 ≤ buf.length) (ht : H.Typed)
      (ha : s.session.devAddr = H.addr) (hf : 12 + H.fo ≤ buf.length)
      (hd : nextFCntDown s.session.fCntDown H.fcnt = some d)
      (hm : macHandleCommands bat (H.count s d pkt.snr) H.fopts = .ok (s2, ev1))
      (hi : Inv s2) (hfr : MacFrame (H.count s d pkt.snr) s2)
      (h : ¬H.MicOk E s.session d) :
      DataCase E bat s pkt buf .msgMic s2 { pkt with fPort := H.port pkt.fPort }
        (shiftMark H.a3 ++ ev1 ++ (H.mic E s.session d).2)
  | good (H : DHdr) (d : U32) (s2 : St) (ev1 : List Ev) (fr : Bytes) (hb : buf = H.bytes) (hl : 12 ≤ buf.length)
      (ht : H.Typed) (ha : s.session.devAddr = H.addr) (hf : 12 + H.fo ≤ buf.length)
      (hd : nextFCntDown s.session.fCntDown H.fcnt = some d)
      (hm : macHandleCommands bat (H.count s d pkt.snr) H.fopts = .ok (s2, ev1))
      (hi : Inv s2) (hfr : MacFrame (H.count s d pkt.snr) s2)
      (h : H.MicOk E s.session d) (hlen : fr.length = 255) :
      DataCase E bat s pkt buf .no (adrHandleDownlink { s2 with frame := fr })
        { pkt with fPort := H.port pkt.fPort, data := (H.plain E s.session d).1 }
        (shiftMark H.a3 ++ ev1 ++ (H.mic E s.session d).2 ++ (H.plain E s.session d).2)

theorem DHdr.exists {buf : Bytes} (h : 8 ≤ buf.length) : ∃ H : DHdr, buf = H.bytes := by
  match buf, h with
  | a :: b :: c :: d :: e :: f :: g :: i :: l, _ => exact ⟨⟨a, b, c, d, e, f, g, i, l⟩, rfl⟩
  | [], h => simp at h
  | [_], h => simp at h
  | [_, _], h => simp at h
  | [_, _, _], h => simp at h
  | [_, _, _, _], h => simp at h
  | [_, _, _, _, _], h => simp at h
  | [_, _, _, _, _, _], h => simp at h
  | [_, _, _, _, _, _, _], h => simp at h

theorem Inv.mark {s : St} (h : Inv s) (H : DHdr) : Inv (H.mark s) := by
  unfold DHdr.mark markAck; split
  · exact { h with }
  · exact h

theorem Inv.count {s : St} (h : Inv s) (H : DHdr) (d : U32) (x : BitVec 8) : Inv (H.count s d x) := by
  have h' := h.mark H
  exact { h' with }

theorem mark_region (H : DHdr) (s : St) : (H.mark s).region = s.region := by unfold DHdr.mark markAck; split <;> rfl
theorem mark_devAddr (H : DHdr) (s : St) : (H.mark s).session.devAddr = s.session.devAddr := by
  unfold DHdr.mark markAck; split <;> rfl
theorem mark_fCntDown (H : DHdr) (s : St) : (H.mark s).session.fCntDown = s.session.fCntDown := by
  unfold DHdr.mark markAck; split <;> rfl
theorem mark_nwk (H : DHdr) (s : St) : (H.mark s).session.nwkSKey = s.session.nwkSKey := by
  unfold DHdr.mark markAck; split <;> rfl
theorem mark_app (H : DHdr) (s : St) : (H.mark s).session.appSKey = s.session.appSKey := by
  unfold DHdr.mark markAck; split <;> rfl

theorem calcMic_congr (E : Env) {a b : Session} (h1 : a.devAddr = b.devAddr) (h2 : a.fCntDown = b.fCntDown)
    (msg : Bytes) (key : Block) : calcMic E a msg key 1 true = calcMic E b msg key 1 true := by
  simp [calcMic, h1, h2]

theorem encryptPayload_congr (E : Env) {a b : Session} (h1 : a.devAddr = b.devAddr) (h2 : a.fCntDown = b.fCntDown)
    (msg : Bytes) (key : Block) : encryptPayload E a msg key 1 = encryptPayload E b msg key 1 := by
  simp [encryptPayload, h1, h2]

theorem tail_length (H : DHdr) : H.tail.length = H.rest.length - 4 - H.fo := by
  simp [DHdr.tail]; omega

theorem dataCmds_eq (bat : Nat → Byte) (s : St) (H : DHdr) :
    dataCmds bat s H.fo H.rest = macHandleCommands bat s H.fopts := by
  unfold dataCmds
  by_cases h0 : H.fo > 0
  · rw [if_pos h0]; rfl
  · rw [if_neg h0]
    have : H.fopts = [] := by simp [DHdr.fopts]; left; omega
    rw [this]; rfl

theorem DHdr.bytes_length (H : DHdr) : H.bytes.length = H.rest.length + 8 := by simp [DHdr.bytes]

theorem dataTail_eq (H : DHdr) (pkt : DlPkt) (hf : 12 + H.fo ≤ H.bytes.length) :
    dataTail pkt (H.bytes.length - (12 + H.fo)) (H.rest.drop H.fo) =
      .ok ({ pkt with fPort := H.port pkt.fPort }, match H.tail with | [] => none | _ :: l => some l) := by
  unfold dataTail
  have hrest := H.bytes_length
  have htl : H.bytes.length - (12 + H.fo) = H.tail.length := by rw [tail_length, hrest]; omega
  have htail : H.tail = (H.rest.drop H.fo).take (H.bytes.length - (12 + H.fo)) := by
    unfold DHdr.tail; congr 1; omega
  cases et : H.tail with
  | nil =>
    rw [if_neg (by rw [htl, et]; simp)]
    simp [DHdr.port, et]
  | cons p l =>
    have e0 : H.bytes.length - (12 + H.fo) > 0 := by rw [htl, et]; simp
    rw [if_pos e0]
    rw [et] at htail
    cases hx : H.rest.drop H.fo with
    | nil => rw [hx] at htail; simp at htail
    | cons q more =>
      rw [hx] at htail
      obtain ⟨n, hn⟩ : ∃ n, H.bytes.length - (12 + H.fo) = n + 1 := ⟨_, (Nat.succ_pred_eq_of_pos e0).symm⟩
      rw [hn] at htail ⊢
      simp only [List.take_succ_cons, List.cons.injEq] at htail
      simp [DHdr.port, et, htail.1, htail.2]

theorem handleDataMsg_cases (E : Env) (bat : Nat → Byte) {s : St} (h : Inv s) (hr : s.region.isSome = true)
    (pkt : DlPkt) (buf : Bytes) (hp : pkt.data = some buf) (hl255 : buf.length ≤ 255) :
    ∃ e s' pkt' ev, handleDataMsg E bat s pkt = .ok (e, s', pkt', ev) ∧ DataCase E bat s pkt buf e s' pkt' ev := by
  unfold handleDataMsg
  rw [hp]
  simp only
  by_cases hl : buf.length < 12
  · rw [if_pos hl]; exact ⟨_, _, _, _, rfl, .short hl⟩
  rw [if_neg hl]
  obtain ⟨H, hb⟩ := DHdr.exists (buf := buf) (by omega)
  have hl12 : 12 ≤ buf.length := by omega
  subst hb
  have hrest := H.bytes_length
  show ∃ e s' pkt' ev, (if (H.mhdr &&& 0x3) ≠ 0 then _ else _) = _ ∧ _
  by_cases h0 : (H.mhdr &&& 0x3) = 0
  rotate_left
  · rw [if_pos h0]; exact ⟨_, _, _, _, rfl, .mhdr H rfl hl12 (fun t => h0 t.1)⟩
  rw [if_neg (by simpa using h0)]
  change ∃ e s' pkt' ev, (if H.mtype ≠ 3 ∧ H.mtype ≠ 5 then _ else _) = _ ∧ _
  by_cases h1 : H.mtype ≠ 3 ∧ H.mtype ≠ 5
  · rw [if_pos h1]
    exact ⟨_, _, _, _, rfl, .mhdr H rfl hl12 (fun t => by rcases t.2 with t | t <;> simp [t] at h1)⟩
  rw [if_neg h1]
  have ht : H.Typed := ⟨h0, by
    by_cases h3 : H.mtype = 3
    · exact .inl h3
    · by_cases h5 : H.mtype = 5
      · exact .inr h5
      · exact absurd ⟨h3, h5⟩ h1⟩
  change ∃ e s' pkt' ev, (if (H.mark s).session.devAddr ≠ H.addr then _ else _) = _ ∧ _
  by_cases ha : s.session.devAddr = H.addr
  rotate_left
  · rw [if_pos (by rw [mark_devAddr]; exact ha)]; exact ⟨_, _, _, _, rfl, .addr H rfl hl12 ht ha⟩
  rw [if_neg (by rw [mark_devAddr]; simpa using ha)]
  change ∃ e s' pkt' ev, (if H.bytes.length < 12 + H.fo then _ else _) = _ ∧ _
  by_cases hf : H.bytes.length < 12 + H.fo
  · rw [if_pos hf]; exact ⟨_, _, _, _, rfl, .fopts H rfl hl12 ht ha hf⟩
  rw [if_neg hf]
  have hf' : 12 + H.fo ≤ H.bytes.length := by omega
  have hd' : nextFCntDown (markAck s ((H.mhdr >>> 5) &&& 7)).session.fCntDown (or16 H.c0 H.c1) =
      nextFCntDown s.session.fCntDown H.fcnt := by rw [← mark_fCntDown H s]; rfl
  rw [hd']
  cases hd : nextFCntDown s.session.fCntDown H.fcnt with
  | none => exact ⟨_, _, _, _, rfl, .fcnt H rfl hl12 ht ha hf' hd⟩
  | some d =>
    simp only
    obtain ⟨s2, ev1, hm, hi, hfr⟩ := macHandleCommands_ok bat (h.count H d pkt.snr)
      (by show (H.mark s).region.isSome = true; rw [mark_region]; exact hr) H.fopts
    change ∃ e s' pkt' ev, (dataBody E bat { H.mark s with session := { (H.mark s).session with fCntDown := d } }
      pkt H.bytes H.rest H.fo >>= _) = _ ∧ _
    unfold dataBody
    simp only
    have hcmd : dataCmds bat { H.mark s with session := { (H.mark s).session with fCntDown := d }, snr := pkt.snr }
        H.fo H.rest = .ok (s2, ev1) := (dataCmds_eq _ _ H).trans hm
    rw [hcmd]
    simp only [bind, Except.bind]
    rw [dataTail_eq H pkt hf']
    simp only
    -- the MIC
    have hmic : calcMic E s2.session (H.bytes.take (H.bytes.length - 4)) s2.session.nwkSKey 1 true =
        H.mic E s.session d := by
      unfold DHdr.mic
      rw [hfr.nwkSKey]
      have : (H.count s d pkt.snr).session.nwkSKey = s.session.nwkSKey := mark_nwk H s
      rw [this]
      refine calcMic_congr E ?_ ?_ _ _
      · rw [hfr.devAddr]; exact mark_devAddr H s
      · rw [hfr.fCntDown]; rfl
    unfold dataFinish
    simp only [hmic]
    by_cases hok : H.bytes.drop (H.bytes.length - 4) = (H.mic E s.session d).1
    rotate_left
    · rw [if_pos hok]
      refine ⟨_, _, _, _, rfl, ?_⟩
      rw [← List.append_assoc]
      exact DataCase.mic (E := E) (bat := bat) (pkt := pkt) H d s2 ev1 rfl hl12 ht ha hf' hd hm hi hfr hok
    rw [if_neg (by simpa using hok)]
    have good := fun fr hfr' => DataCase.good (E := E) (bat := bat) (pkt := pkt) H d s2 ev1 fr rfl hl12 ht ha hf' hd hm
      hi hfr hok hfr'
    match et : H.tail with
    | [] =>
      refine ⟨_, _, _, _, rfl, ?_⟩
      have := good s2.frame hi.frame
      simpa [DHdr.plain, et] using this
    | [p] =>
      refine ⟨_, _, _, _, rfl, ?_⟩
      have := good s2.frame hi.frame
      simpa [DHdr.plain, et] using this
    | p :: b :: l =>
      simp only
      have hport : H.port pkt.fPort = p := by simp [DHdr.port, et]
      have hkey : (if H.port pkt.fPort = 0 then s2.session.nwkSKey else s2.session.appSKey) = H.key s.session := by
        unfold DHdr.key
        rw [et, hport, hfr.nwkSKey, hfr.appSKey]
        have e1 : (H.count s d pkt.snr).session.nwkSKey = s.session.nwkSKey := mark_nwk H s
        have e2 : (H.count s d pkt.snr).session.appSKey = s.session.appSKey := mark_app H s
        rw [e1, e2]; simp
      have henc : encryptPayload E s2.session (b :: l) (H.key s.session) 1 =
          encryptPayload E { s.session with fCntDown := d } (b :: l) (H.key s.session) 1 := by
        refine encryptPayload_congr E ?_ ?_ _ _
        · rw [hfr.devAddr]; exact mark_devAddr H s
        · rw [hfr.fCntDown]; rfl
      have hll : l.length + 2 = H.tail.length := by rw [et]; simp
      have htl := tail_length H
      obtain ⟨fr, hbl, hfrl⟩ := blit_ok (dst := s2.frame) (off := 8 + H.fo + 1)
        (src := (encryptPayload E { s.session with fCntDown := d } (b :: l) (H.key s.session) 1).1)
        (by rw [encryptPayload_length, hi.frame]; simp; omega)
      simp only [hkey, henc, hbl]
      refine ⟨_, _, _, _, rfl, ?_⟩
      have := good fr (by rw [hfrl, hi.frame])
      simpa [DHdr.plain, et, List.append_assoc] using this

end Uwan
