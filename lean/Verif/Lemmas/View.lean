import Verif.Lemmas.Parse
import Verif.Spec.Session

/-! The observer's view agrees with the stack's state. -/

namespace Uwan
open Spec

variable {E : Env}

/-- The part of the state the view describes. -/
structure ViewOf (v : View) (s : St) : Prop where
  joined : v.joined = s.session.isJoined
  addr : v.addr = s.session.devAddr.toNat
  up : v.up = s.session.fCntUp.toNat
  nwk : v.nwk = s.session.nwkSKey
  app : v.app = s.session.appSKey
  appKey : v.appKey = s.appKey
  devEui : v.devEui = s.devEui.toList
  appEui : v.appEui = s.appEui.toList
  nonce : v.nonce = s.devNonce.toNat

/-- States that look the same to the observer. -/
structure SameView (s s' : St) : Prop where
  joined : s'.session.isJoined = s.session.isJoined
  addr : s'.session.devAddr = s.session.devAddr
  up : s'.session.fCntUp = s.session.fCntUp
  nwk : s'.session.nwkSKey = s.session.nwkSKey
  app : s'.session.appSKey = s.session.appSKey
  appKey : s'.appKey = s.appKey
  devEui : s'.devEui = s.devEui
  appEui : s'.appEui = s.appEui
  nonce : s'.devNonce = s.devNonce

theorem SameView.refl (s : St) : SameView s s := by constructor <;> rfl

theorem SameView.trans {a b c : St} (h : SameView a b) (g : SameView b c) : SameView a c :=
  ⟨g.joined.trans h.joined, g.addr.trans h.addr, g.up.trans h.up, g.nwk.trans h.nwk, g.app.trans h.app,
   g.appKey.trans h.appKey, g.devEui.trans h.devEui, g.appEui.trans h.appEui, g.nonce.trans h.nonce⟩

theorem ViewOf.same {v : View} {s s' : St} (h : ViewOf v s) (g : SameView s s') : ViewOf v s' :=
  ⟨h.joined.trans g.joined.symm, h.addr.trans (by rw [g.addr]), h.up.trans (by rw [g.up]), h.nwk.trans g.nwk.symm,
   h.app.trans g.app.symm, h.appKey.trans g.appKey.symm, h.devEui.trans (by rw [g.devEui]),
   h.appEui.trans (by rw [g.appEui]), h.nonce.trans (by rw [g.nonce])⟩

theorem MacFrame.same {s s' : St} (h : MacFrame s s') : SameView s s' :=
  ⟨h.isJoined, h.devAddr, h.fCntUp, h.nwkSKey, h.appSKey, h.appKey, h.devEui, h.appEui, h.devNonce⟩

theorem mark_same (H : DHdr) (s : St) : SameView s (H.mark s) := by
  unfold DHdr.mark markAck; split <;> constructor <;> rfl

theorem count_same (H : DHdr) (s : St) (d : U32) (x : BitVec 8) : SameView s (H.count s d x) :=
  (mark_same H s).trans (by constructor <;> rfl)

theorem DataCase.same {bat : Nat → Byte} {s : St} {pkt : DlPkt} {buf : Bytes} {e : Err} {s' : St} {p' : DlPkt}
    {ev : List Ev} (hc : DataCase E bat s pkt buf e s' p' ev) : SameView s s' := by
  cases hc with
  | short => exact .refl _
  | mhdr => exact .refl _
  | addr H => exact mark_same H s
  | fopts H => exact mark_same H s
  | fcnt H => exact mark_same H s
  | mic H d s2 ev1 hb hl ht ha hf hd hm hi hfr => exact (count_same H s d _).trans hfr.same
  | good H d s2 ev1 fr hb hl ht ha hf hd hm hi hfr =>
    refine ((count_same H s d _).trans hfr.same).trans ?_
    constructor <;> rfl

theorem quiet_not_downlink {e : Ev} (h : e.quiet = true) {x m p} : e ≠ .downlink x m p := by
  rintro rfl; exact Bool.noConfusion h

/-- A result reported by `handle_downlink` is the last effect, and only that. -/
theorem any_downlink {a q : List Ev} {e : Err} {m : Byte} {p : DlPkt} (ha : a = [.sleep] ∨ a = [.readPacket, .sleep])
    (hq : Quiet q) (f : Ev → Bool) (hf : ∀ x, f x = true → ∃ e m p, x = .downlink e m p) :
    (a ++ q ++ [Ev.downlink e m p]).any f = f (Ev.downlink e m p) := by
  have h1 : ∀ l : List Ev, (∀ x ∈ l, ∀ e m p, x ≠ .downlink e m p) → l.any f = false := by
    intro l hl
    cases hx : l.any f
    · rfl
    · obtain ⟨x, hx1, hx2⟩ := List.any_eq_true.mp hx
      obtain ⟨e, m, p, rfl⟩ := hf x hx2
      exact absurd rfl (hl _ hx1 e m p)
  have ha' : a.any f = false := h1 a (by
    rcases ha with rfl | rfl <;> intro x hx <;> simp at hx
    · subst hx; intros; simp
    · rcases hx with rfl | rfl <;> intros <;> simp)
  have hq' : q.any f = false := h1 q (fun x hx _ _ _ => quiet_not_downlink (hq.all x hx))
  simp [ha', hq']

/-- Predicates true of results only. -/
theorem joinReported_shape {a q : List Ev} {e : Err} {m : Byte} {p : DlPkt} (ha : a = [.sleep] ∨ a = [.readPacket, .sleep])
    (hq : Quiet q) : joinReported (a ++ q ++ [Ev.downlink e m p]) = (e == .no && m == 1) := by
  unfold joinReported
  rw [any_downlink ha hq]
  · cases e <;> simp
  · intro x hx; cases x <;> simp at hx
    exact ⟨_, _, _, rfl⟩

theorem dataReported_shape {a q : List Ev} {e : Err} {m : Byte} {p : DlPkt} (ha : a = [.sleep] ∨ a = [.readPacket, .sleep])
    (hq : Quiet q) : dataReported (a ++ q ++ [Ev.downlink e m p]) = (e == .no && m != 1) := by
  unfold dataReported
  rw [any_downlink ha hq]
  · cases e <;> simp
  · intro x hx; cases x <;> simp at hx
    exact ⟨_, _, _, rfl⟩

/-- With a non-empty packet the reported type comes from its first byte. -/
theorem rxMtype_cons {o : Oracle} {s : St} {b : Byte} {l : Bytes} (h : o.rxData.take 255 = b :: l) :
    rxMtype o s = (b >>> 5) &&& 7 := by
  unfold rxMtype rxSt; simp [h]

theorem joinDec_one (key b : Block) : joinDec E key [b] = (E.aes key b).toList := by simp [joinDec]
theorem joinDec_two (key b c : Block) : joinDec E key [b, c] = (E.aes key b).toList ++ (E.aes key c).toList := by
  simp [joinDec]

theorem take_255 {l m : Bytes} (h : l.take 255 = m) (hm : m.length < 255) : l = m := by
  rw [← h] at hm ⊢
  rw [List.take_of_length_le]
  simp at hm; omega

/-- The model's decryption of a received join-accept is the specification's. -/
theorem joinDec_eq (key : Block) (blks : List Block) (hn : blks.length = 1 ∨ blks.length = 2) (l : Bytes)
    (hb : l = 0x20 :: blks.flatMap (·.toList)) : joinDec E key blks = joinClear E key l := by
  rcases hn with hn | hn
  · match blks, hn with
    | [b], _ =>
      subst hb
      have : ((0x20 : Byte) :: b.toList).length ≤ 17 := by simp
      simp only [joinDec_one, joinClear, List.flatMap_cons, List.flatMap_nil, List.append_nil, List.drop_succ_cons,
        List.drop_zero, this, ↓reduceIte]
      rw [List.take_of_length_le (by simp), blockOf_of_toList]
  · match blks, hn with
    | [b, c], _ =>
      subst hb
      have : ¬ ((0x20 : Byte) :: (b.toList ++ c.toList)).length ≤ 17 := by simp
      simp only [joinDec_two, joinClear, List.flatMap_cons, List.flatMap_nil, List.append_nil, List.drop_succ_cons,
        List.drop_zero, this, ↓reduceIte]
      have e1 : (b.toList ++ c.toList).take 16 = b.toList := by
        rw [List.take_append_of_le_length (by simp), List.take_of_length_le (by simp)]
      have e2 : (b.toList ++ c.toList).drop 16 = c.toList := by
        exact List.drop_left' (by simp)
      rw [e1, e2, List.take_of_length_le (by simp), blockOf_of_toList, blockOf_of_toList]

theorem JMsg.done_view (J : JMsg) {v : View} {s : St} {c : Chan} {l : Bytes} (h : ViewOf v s)
    (hJ : J.bytes = joinClear E s.appKey l) : ViewOf (v.accept E l) (J.done E s c) := by
  have e : joinClear E v.appKey l = J.bytes := by rw [hJ, h.appKey]
  have dl := joinRxParams_dl s J.dl J.dly
  constructor
  · rfl
  · simp only [View.accept, e]
    exact (or32_toNat ..).symm
  · rfl
  · simp only [View.accept, e]
    show _ = (J.nwk E s).1
    rw [JMsg.nwk, deriveSessionKey_eq, or24_toNat, or24_toNat, h.appKey, h.nonce]; rfl
  · simp only [View.accept, e]
    show _ = (J.app E s).1
    rw [JMsg.app, deriveSessionKey_eq, or24_toNat, or24_toNat, h.appKey, h.nonce]; rfl
  · exact h.appKey.trans dl.appKey.symm
  · exact h.devEui.trans (congrArg Vector.toList dl.devEui.symm)
  · exact h.appEui.trans (congrArg Vector.toList dl.appEui.symm)
  · exact h.nonce.trans (congrArg BitVec.toNat dl.devNonce.symm)

/-- Was a join-accept accepted: what it means for the view. -/
theorem DlCase.view {o : Oracle} {s : St} {err : Err} {s' : St} {ev : List Ev} {v : View} (h : ViewOf v s)
    (hc : DlCase E o s err s' ev) : ViewOf (if joinReported ev then v.accept E o.rxData else v) s' := by
  cases hc with
  | none he =>
    have : joinReported [Ev.sleep, .downlink err 0 ⟨Option.none, 0, 0, 0⟩] = (err == .no && (0 : Byte) == 1) :=
      joinReported_shape (a := [.sleep]) (q := []) (.inl rfl) Quiet.nil
    rw [this]
    simp
    exact h.same (by constructor <;> rfl)
  | join e s1 p ev1 he hj hc =>
    rw [joinReported_shape (.inr rfl) hc.quiet]
    have h0 : ViewOf v (rxSt o s) := h.same (by constructor <;> rfl)
    cases hc with
    | len => simp; exact h0.same (by constructor <;> rfl)
    | mhdr => simp; exact h0.same (by constructor <;> rfl)
    | mic => simp; exact h0.same (by constructor <;> rfl)
    | good blks fr J c hb hn hlen hok hJ hc hci =>
      have hl : (o.rxData.take 255).length < 255 := by
        rw [hb]
        rcases hn with hn | hn
        · match blks, hn with
          | [b], _ => simp
        · match blks, hn with
          | [b, c], _ => simp
      have hm : rxMtype o s = 1 := by rw [rxMtype_cons hb]; decide
      have he := take_255 rfl hl
      rw [hm]
      simp
      have h1 : ViewOf v { rxSt o s with frame := fr } := h0.same (by constructor <;> rfl)
      have := J.done_view (E := E) (c := c) (l := o.rxData) h1
        (by rw [← hJ]; exact joinDec_eq _ _ hn _ (by rw [he]; exact hb))
      exact this.same (by constructor <;> rfl)
  | data e s1 p ev1 he hj hc =>
    rw [joinReported_shape (.inr rfl) hc.quiet]
    have h0 : ViewOf v (rxSt o s) := h.same (by constructor <;> rfl)
    have hs : ViewOf v { s1 with joinState := false } := (h0.same hc.same).same (by constructor <;> rfl)
    have : (e == Err.no && rxMtype o s == 1) = false := by
      cases hc with
      | good H d s2 ev1 fr hb hl ht ha hf hd hm hi hfr hok hlen =>
        have hm : rxMtype o s = H.mtype := by rw [rxMtype_cons hb]; rfl
        rw [hm]
        rcases ht.2 with h | h <;> rw [h] <;> decide
      | _ => rfl
    rw [this]
    exact hs

theorem txs_quiet {q : List Ev} (h : Quiet q) : txs q = [] := by
  unfold txs
  rw [List.filterMap_eq_nil_iff]
  intro e he
  have := h.all e he
  cases e <;> first | rfl | exact Bool.noConfusion this

theorem txs_append (a b : List Ev) : txs (a ++ b) = txs a ++ txs b := by simp [txs]

theorem txs_sent (s : St) (d : Sf × Bw) (f : U32) (p : Byte) (l : Bytes) (c : Bool) :
    txs (sentEv E s d f p l c) = [(buildUplink E s p l c).1] := by
  unfold sentEv
  rw [txs_append, txs_append, txs_quiet (buildUplink_quiet ..)]; rfl

theorem txs_join (s : St) (d : Sf × Bw) (f : U32) (n : Nat) :
    txs (joinEv E s d f n) = [(buildJoin E s (nonceOf n)).1] := by
  unfold joinEv
  rw [txs_append, txs_append, txs_quiet (buildJoin_quiet ..)]; rfl

theorem nonceOf_toNat (n : Nat) : (nonceOf n).toNat = n % 65536 := by
  unfold nonceOf; rw [BitVec.toNat_ofNat]; omega

theorem nonceSent_join (s : St) (d : Sf × Bw) (f : U32) (n : Nat) :
    nonceSent (joinEv E s d f n) = (nonceOf n).toNat := by
  unfold nonceSent
  rw [txs_join]
  have e : (((buildJoin E s (nonceOf n)).1).drop 17).take 2 = [byteOf (nonceOf n) 0, byteOf (nonceOf n) 1] := by
    unfold buildJoin
    simp only
    have e1 : (0 :: (s.appEui.toList ++ s.devEui.toList.reverse ++ [byteOf (nonceOf n) 0, byteOf (nonceOf n) 1]) ++
        (calcMic E s.session (0 :: (s.appEui.toList ++ s.devEui.toList.reverse ++
        [byteOf (nonceOf n) 0, byteOf (nonceOf n) 1])) s.appKey 0 false).1 : Bytes) =
        (0 :: (s.appEui.toList ++ s.devEui.toList.reverse)) ++ ([byteOf (nonceOf n) 0, byteOf (nonceOf n) 1] ++
        (calcMic E s.session (0 :: (s.appEui.toList ++ s.devEui.toList.reverse ++
        [byteOf (nonceOf n) 0, byteOf (nonceOf n) 1])) s.appKey 0 false).1) := by simp
    rw [e1]
    have e2 : ((0 : Byte) :: (s.appEui.toList ++ s.devEui.toList.reverse)).length = 17 := by simp
    conv => lhs; arg 2; arg 1; rw [← e2]
    rw [List.drop_left]
    rfl
  simp only [List.headD_cons, e, leNat_byteOf2, nonceOf_toNat]
  omega

theorem adrHandleUplink_same (s : St) : SameView s (adrHandleUplink s) := by
  unfold adrHandleUplink; simp only; split <;> constructor <;> rfl

/-- One operation. -/
theorem view_step {s s' : St} {v : View} {op : Op} {r : Ret} {ev : List Ev} (hi : Inv s) (hv : op.Valid)
    (h : ViewOf v s) (hs : step E s op = .ok (r, s', ev)) : ViewOf (v.next E ⟨s, op, r, ev, s'⟩) s' := by
  cases op with
  | init rg =>
    simp only [step, Except.ok.injEq, Prod.mk.injEq] at hs
    obtain ⟨_, rfl, _⟩ := hs
    rw [uwanInit_eq]
    exact ⟨rfl, rfl, rfl, rfl, rfl, h.appKey, h.devEui, h.appEui, h.nonce⟩
  | setOtaaKeys d a k =>
    simp only [step, Except.ok.injEq, Prod.mk.injEq] at hs
    obtain ⟨_, rfl, _⟩ := hs
    exact ⟨h.joined, h.addr, h.up, h.nwk, h.app, rfl, rfl, rfl, h.nonce⟩
  | setSession a u d n k =>
    simp only [step, Except.ok.injEq, Prod.mk.injEq] at hs
    obtain ⟨_, rfl, _⟩ := hs
    exact ⟨rfl, rfl, rfl, rfl, rfl, h.appKey, h.devEui, h.appEui, h.nonce⟩
  | join r1 r2 =>
    obtain ⟨e, rfl, hc⟩ := step_join hi hs
    cases hc with
    | state => exact h
    | channel => exact h
    | sent f d =>
      simp only [View.next, ↓reduceIte, nonceSent_join]
      exact ⟨rfl, h.addr, h.up, h.nwk, h.app, h.appKey, h.devEui, h.appEui, rfl⟩
  | send p l c rnd =>
    obtain ⟨e, rfl, hc⟩ := step_send hi hs
    cases hc with
    | state => exact h
    | channel => exact h
    | len => exact h
    | sent f d =>
      simp only [View.next, ↓reduceIte]
      refine ViewOf.same ?_ (adrHandleUplink_same _)
      refine ⟨h.joined, h.addr, ?_, h.nwk, h.app, h.appKey, h.devEui, h.appEui, h.nonce⟩
      show (v.up + 1) % 2 ^ 32 = (s.session.fCntUp + 1).toNat
      rw [BitVec.toNat_add, h.up]; rfl
  | event m o =>
    have hc := step_event hi hs
    have key : ∀ {s' : St} {ev : List Ev}, SameView s s' → Quiet ev →
        ViewOf (if joinReported ev then v.accept E o.rxData else v) s' := by
      intro s' ev hsame hq
      have : joinReported ev = false := by
        unfold joinReported
        rw [List.any_eq_false]
        intro x hx
        have := hq.all x hx
        cases x <;> first | exact Bool.noConfusion this | simp
      rw [this]; exact h.same hsame
    have h0 : ViewOf v { s with phase := .idle } := h.same (by constructor <;> rfl)
    cases hc with
    | ignore => exact key (.refl _) Quiet.nil
    | txDone m ev2 hp hm hmac =>
      simp only [View.next]
      have : joinReported ([.startTimer .rx1 s.rx1Delay, .startTimer .rx2 s.rx2Delay, .setup (rx1Pp s)] ++ ev2) =
          joinReported ev2 := by simp [joinReported]
      rw [this]
      exact key (by constructor <;> rfl) (macOnTxComplete_quiet hmac)
    | rx1Timeout =>
      simp only [View.next]
      exact h.same (by constructor <;> rfl)
    | rx1Done s1 ev1 hp ht hm hc =>
      simp only [View.next]
      have : joinReported (.stopTimer .rx2 :: ev1) = joinReported ev1 := by simp [joinReported]
      rw [this]
      exact hc.view h0
    | rx2Timeout _ _ hp hm hc => exact hc.view h0
    | rx2Done _ _ hp ht hm hc => exact hc.view h0
  | timer id =>
    obtain ⟨rfl, _⟩ := step_timer hs
    exact h
  | setRx2 f dr =>
    simp only [step, Except.ok.injEq, Prod.mk.injEq] at hs
    obtain ⟨_, rfl, _⟩ := hs
    exact h.same (macFrame_setRx2 s f dr).same
  | setRx1DrOffset n =>
    simp only [step, Except.ok.injEq, Prod.mk.injEq] at hs
    obtain ⟨_, rfl, _⟩ := hs
    exact h.same (macFrame_setRx1DrOffset s n).same
  | setRx1Delay n =>
    simp only [step, Except.ok.injEq, Prod.mk.injEq] at hs
    obtain ⟨_, rfl, _⟩ := hs
    exact h.same (macFrame_setRx1Delay s n).same
  | setDr dr =>
    simp only [step, Except.ok.injEq, Prod.mk.injEq] at hs
    obtain ⟨_, rfl, _⟩ := hs
    refine h.same ?_
    unfold setDr; split <;> constructor <;> rfl
  | setNbTrans n =>
    simp only [step, Except.ok.injEq, Prod.mk.injEq] at hs
    obtain ⟨_, rfl, _⟩ := hs
    refine h.same ?_
    have := (macFrame_setNbTransInt s n).same
    unfold setNbTrans; simp only; split
    · exact { this with }
    · exact .refl _
  | setTxPower n =>
    simp only [step, Except.ok.injEq, Prod.mk.injEq] at hs
    obtain ⟨_, rfl, _⟩ := hs
    refine h.same ?_
    have := (macFrame_setTxPowerInt s n).same
    unfold setTxPower; simp only; split
    · exact { this with }
    · exact .refl _
  | _ =>
    simp only [step, Except.ok.injEq, Prod.mk.injEq] at hs
    obtain ⟨_, rfl, _⟩ := hs
    exact h.same (by constructor <;> rfl)

theorem ViewOf.boot : ViewOf View.boot St.boot := by constructor <;> decide

/-- The observer is right after every history. -/
theorem view_hist {log : List Item} {s : St} (h : Hist E log s) : ViewOf (view E log) s := by
  induction h with
  | nil => exact ViewOf.boot
  | snoc h hv hs ih =>
    unfold Spec.view at ih ⊢
    rw [List.foldl_append]
    exact view_step (Hist.inv h) hv ih hs

end Uwan
