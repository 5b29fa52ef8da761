import Verif.Lemmas.Windows

/-! Crypto contexts and undefined shifts along a history. -/

namespace Uwan
open Spec

variable {E : Env}

/-- What a MAC command handler can call; the undefined shift needs a byte with the top bit set. -/
def MacEv (l : Bytes) (e : Ev) : Prop :=
  (∃ m g, e = .linkCheckResult m g) ∨ e = .getBattery ∨ (∃ a b c, e = .deviceTimeResult a b c) ∨
  (e = .ubShift ∧ ∃ b ∈ l, 128 ≤ b.toNat)

theorem MacEv.mono {l l' : Bytes} {e : Ev} (hs : ∀ b ∈ l, b ∈ l') (h : MacEv l e) : MacEv l' e := by
  rcases h with h | h | h | ⟨h, b, hb, hh⟩
  · exact .inl h
  · exact .inr (.inl h)
  · exact .inr (.inr (.inl h))
  · exact .inr (.inr (.inr ⟨h, b, hs b hb, hh⟩))

theorem shiftMark_mem {b : Byte} {e : Ev} (h : e ∈ shiftMark b) : e = .ubShift ∧ 128 ≤ b.toNat := by
  unfold shiftMark at h
  split at h
  · next hb => exact ⟨List.mem_singleton.mp h, hb⟩
  · cases h

theorem runHandler_macEv {h : MacHandler} {s : St} {pld : Bytes} {bat : Byte} {ok : Bool} {s' : St} {ev : List Ev}
    (he : runHandler h s pld bat = .ok (ok, s', ev)) : ∀ e ∈ ev, MacEv pld e := by
  cases h <;> simp only [runHandler, hLinkCheck, hLinkAdr, hDutyCycle, hRxParamSetup, hDevStatus, hNewChannel,
    hRxTimingSetup, hDeviceTime] at he <;>
    repeat' first
      | (split at he)
      | (simp only [Except.ok.injEq, Prod.mk.injEq, reduceCtorEq] at he)
      | (obtain ⟨_, _, rfl⟩ := he)
  all_goals first
    | exact he.elim
    | (intro e h; cases h; done)
    | (intro e h; obtain rfl := List.mem_singleton.mp h; exact .inl ⟨_, _, rfl⟩)
    | (intro e h; obtain rfl := List.mem_singleton.mp h; exact .inr (.inl rfl))
    | (intro e h
       rcases List.mem_append.mp h with h | h
       · obtain ⟨h1, h2⟩ := shiftMark_mem h
         exact .inr (.inr (.inr ⟨h1, _, by simp, h2⟩))
       · obtain rfl := List.mem_singleton.mp h; exact .inr (.inr (.inl ⟨_, _, _, rfl⟩)))

theorem macLoop_macEv (bat : Nat → Byte) : ∀ (n : Nat) (s s' : St) (l : Bytes) (ev : List Ev),
    macLoop bat n s l = .ok (s', ev) → ∀ e ∈ ev, MacEv l e
  | 0, s, s', [], ev, h => by simp only [macLoop, Except.ok.injEq, Prod.mk.injEq] at h; rw [← h.2]; nofun
  | 0, s, s', _ :: _, ev, h => by simp [macLoop] at h
  | n + 1, s, s', [], ev, h => by simp only [macLoop, Except.ok.injEq, Prod.mk.injEq] at h; rw [← h.2]; nofun
  | n + 1, s, s', cid :: rest, ev, h => by
    simp only [macLoop] at h
    split at h
    · simp only [Except.ok.injEq, Prod.mk.injEq] at h; rw [← h.2]; nofun
    · next c hc =>
      split at h
      · cases hr : runHandler c.handler s rest (bat rest.length) with
        | error u => simp [hr, bind, Except.bind] at h
        | ok x =>
          obtain ⟨ok, s1, ev1⟩ := x
          simp only [hr, bind, Except.bind] at h
          have h1 : ∀ e ∈ ev1, MacEv (cid :: rest) e := fun e he =>
            (runHandler_macEv hr e he).mono fun b hb => List.mem_cons_of_mem _ hb
          cases ok with
          | false =>
            simp only [Bool.false_eq_true, ↓reduceIte, Except.ok.injEq, Prod.mk.injEq] at h
            rw [← h.2]; exact h1
          | true =>
            simp only [↓reduceIte] at h
            cases hl : macLoop bat n s1 (rest.drop c.pldSize) with
            | error u => simp [hl] at h
            | ok y =>
              obtain ⟨s2, ev2⟩ := y
              simp only [hl, Except.ok.injEq, Prod.mk.injEq] at h
              rw [← h.2]
              intro e he
              rcases List.mem_append.mp he with he | he
              · exact h1 e he
              · exact (macLoop_macEv bat n _ _ _ _ hl e he).mono fun b hb => List.mem_cons_of_mem _ (List.mem_of_mem_drop hb)
      · simp only [Except.ok.injEq, Prod.mk.injEq] at h; rw [← h.2]; nofun

/-! ### Crypto contexts -/

/-- No context is open before and after. -/
def Bal (l : List Ev) : Prop := crypto l = .none

theorem Bal.append {a b : List Ev} (ha : Bal a) (hb : Bal b) : Bal (a ++ b) := by
  unfold Bal crypto at *
  rw [List.foldl_append, ha, hb]

theorem Bal.nil : Bal [] := rfl

theorem Bal.of {l : List Ev} (h : ∀ e ∈ l, ∀ c, Crypto.next c e = c) : Bal l := by
  unfold Bal crypto
  suffices ∀ c, l.foldl Crypto.next c = c from this _
  induction l with
  | nil => intro c; rfl
  | cons e l ih =>
    intro c
    rw [List.foldl_cons, h e List.mem_cons_self, ih fun x hx => h x (List.mem_cons_of_mem _ hx)]

theorem Bal.mac {l : Bytes} {ev : List Ev} (h : ∀ e ∈ ev, MacEv l e) : Bal ev := by
  refine Bal.of fun e he c => ?_
  rcases h e he with ⟨_, _, rfl⟩ | rfl | ⟨_, _, _, rfl⟩ | ⟨rfl, -⟩ <;> rfl

theorem shiftMark_bal (b : Byte) : Bal (shiftMark b) := by
  unfold shiftMark; split <;> rfl

theorem calcMic_bal (ss : Session) (m : Bytes) (k : Block) (d : Byte) (b : Bool) : Bal (calcMic E ss m k d b).2 := by
  unfold calcMic; cases b <;> rfl

theorem encLoop_bal (aes : Block → Block) (dir : Byte) (addr fcnt : U32) : ∀ n i l u, l.length ≤ n →
    (encLoop aes dir addr fcnt n i l).2.foldl Crypto.next (.aes u) = .aes (u || !l.isEmpty)
  | 0, _, [], u, _ => by cases u <;> rfl
  | 0, _, _ :: _, _, h => by simp at h
  | _ + 1, _, [], u, _ => by cases u <;> rfl
  | n + 1, i, b :: l, u, h => by
    have := encLoop_bal aes dir addr fcnt n (i + 1) ((b :: l).drop 16) true (by simp at h ⊢; omega)
    show (encLoop aes dir addr fcnt n (i + 1) ((b :: l).drop 16)).2.foldl Crypto.next (.aes true) = _
    rw [this]
    simp

theorem encryptPayload_bal (ss : Session) (buf : Bytes) (key : Block) (dir : Byte) (h : buf ≠ []) :
    Bal (encryptPayload E ss buf key dir).2 := by
  unfold encryptPayload Bal crypto
  have := encLoop_bal (E.aes key) dir ss.devAddr (if dir ≠ 0 then ss.fCntDown else ss.fCntUp) buf.length 1 buf false (Nat.le_refl _)
  simp only [List.cons_append, List.foldl_cons, List.foldl_append]
  rw [show Crypto.next .none (.aesNew key) = .aes false from rfl, this]
  cases buf with
  | nil => exact absurd rfl h
  | cons b l => rfl

theorem deriveSessionKey_bal (k : Block) (t : Byte) (a b c : U32) : Bal (deriveSessionKey E k t a b c).2 := rfl

theorem buildUplink_bal (s : St) (p : Byte) (l : Bytes) (c : Bool) : Bal (buildUplink E s p l c).2 := by
  unfold buildUplink
  simp only
  refine Bal.append ?_ (calcMic_bal ..)
  split
  · next h => exact encryptPayload_bal _ _ _ _ fun e => h (by rw [e]; rfl)
  · exact Bal.nil

theorem DHdr.plain_bal (H : DHdr) (ss : Session) (d : U32) : Bal (H.plain E ss d).2 := by
  unfold DHdr.plain; split
  · exact Bal.nil
  · exact Bal.nil
  · exact encryptPayload_bal _ _ _ _ (by simp)

theorem joinDecEv_bal (key : Block) (b : List Block) (h : b.length = 1 ∨ b.length = 2) : Bal (joinDecEv key b) := by
  match b, h with
  | [], h => simp at h
  | [_], _ => rfl
  | [_, _], _ => rfl
  | _ :: _ :: _ :: _, h => simp at h

theorem joinMicEv_bal (key : Block) (b : Bytes) : Bal (joinMicEv key b) := rfl

theorem DataCase.bal {bat : Nat → Byte} {s : St} {pkt : DlPkt} {buf : Bytes} {e : Err} {s' : St} {p' : DlPkt}
    {ev : List Ev} (hc : DataCase E bat s pkt buf e s' p' ev) : Bal ev := by
  cases hc with
  | short => exact Bal.nil
  | mhdr => exact Bal.nil
  | addr => exact shiftMark_bal _
  | fopts => exact shiftMark_bal _
  | fcnt => exact shiftMark_bal _
  | mic H d s2 ev1 hb hl ht ha hf hd hm =>
    exact ((shiftMark_bal _).append (Bal.mac (macLoop_macEv _ _ _ _ _ _ hm))).append (calcMic_bal ..)
  | good H d s2 ev1 fr hb hl ht ha hf hd hm =>
    exact (((shiftMark_bal _).append (Bal.mac (macLoop_macEv _ _ _ _ _ _ hm))).append (calcMic_bal ..)).append (H.plain_bal ..)

theorem JoinCase.bal {s : St} {pkt : DlPkt} {buf : Bytes} {e : Err} {s' : St} {p' : DlPkt}
    {ev : List Ev} (hc : JoinCase E s pkt buf e s' p' ev) : Bal ev := by
  cases hc with
  | len => exact Bal.nil
  | mhdr => exact Bal.nil
  | mic blks fr hb hn => exact (joinDecEv_bal _ _ hn).append (joinMicEv_bal ..)
  | good blks fr J c hb hn =>
    exact ((((joinDecEv_bal _ _ hn).append (joinMicEv_bal ..)).append (shiftMark_bal _)).append
      (deriveSessionKey_bal (E := E) ..)).append (deriveSessionKey_bal (E := E) ..)

theorem DlCase.bal {o : Oracle} {s : St} {err : Err} {s' : St} {ev : List Ev} (hc : DlCase E o s err s' ev) : Bal ev := by
  cases hc with
  | none => rfl
  | join e s1 p ev1 h hj hc => exact ((show Bal [.readPacket, .sleep] from rfl).append hc.bal).append rfl
  | data e s1 p ev1 h hj hc => exact ((show Bal [.readPacket, .sleep] from rfl).append hc.bal).append rfl

theorem step_bal {s s' : St} {op : Op} {r : Ret} {ev : List Ev} (hi : Inv s) (hs : step E s op = .ok (r, s', ev)) : Bal ev := by
  by_cases hc : op.isCfg = true
  · rw [(step_cfg hc hs).1]; exact Bal.nil
  cases op with
  | init rg =>
    simp only [step, Except.ok.injEq, Prod.mk.injEq] at hs
    rw [← hs.2.2]
    rfl
  | join r1 r2 =>
    obtain ⟨e, rfl, hcs⟩ := step_join hi hs
    cases hcs with
    | state => exact Bal.nil
    | channel => exact Bal.nil
    | sent f d hp hg hf => exact ((show Bal (txSetup s d f) from rfl).append (calcMic_bal (E := E) ..)).append rfl
  | send p l c rn =>
    obtain ⟨e, rfl, hcs⟩ := step_send hi hs
    cases hcs with
    | state => exact Bal.nil
    | channel => exact Bal.nil
    | len => exact Bal.nil
    | sent f d hp hg hf => exact ((show Bal (txSetup s d f) from rfl).append (buildUplink_bal ..)).append rfl
  | timer id =>
    obtain ⟨rfl, hev⟩ := step_timer hs
    rcases hev with rfl | ⟨rfl, hp⟩ <;> rfl
  | event m o =>
    have hev := step_event hi hs
    cases hev with
    | ignore => exact Bal.nil
    | txDone mm ev2 hp hm hmac =>
      refine (show Bal [.startTimer .rx1 s.rx1Delay, .startTimer .rx2 s.rx2Delay, .setup (rx1Pp s)] from rfl).append (Bal.of fun e he c => ?_)
      unfold macOnTxComplete at hmac
      split at hmac
      · split at hmac
        · cases hmac
        · split at hmac <;> simp only [Except.ok.injEq, Prod.mk.injEq] at hmac <;> rw [← hmac.2] at he
          · obtain rfl := List.mem_singleton.mp he; rfl
          · cases he
      · simp only [Except.ok.injEq, Prod.mk.injEq] at hmac; rw [← hmac.2] at he; cases he
    | rx1Timeout d hp hm => rfl
    | rx1Done _ ev hp _ _ hc => exact (show Bal [.stopTimer .rx2] from rfl).append hc.bal
    | rx2Timeout _ ev hp _ hc => exact hc.bal
    | rx2Done _ ev hp _ _ hc => exact hc.bal
  | _ => exact absurd rfl hc

/-! ### Undefined shifts -/

theorem noShift_crypto {l : List Ev} (h : ∀ e ∈ l, e ≠ .ubShift) {P : Prop} : Ev.ubShift ∈ l → P := fun hm => absurd rfl (h _ hm)

theorem calcMic_noShift (ss : Session) (m : Bytes) (k : Block) (d : Byte) (b : Bool) : Ev.ubShift ∉ (calcMic E ss m k d b).2 := by
  unfold calcMic; cases b <;> simp

theorem encLoop_noShift (aes : Block → Block) (dir : Byte) (addr fcnt : U32) : ∀ n i l, Ev.ubShift ∉ (encLoop aes dir addr fcnt n i l).2
  | 0, _, [] => by simp [encLoop]
  | 0, _, _ :: _ => by simp [encLoop]
  | _ + 1, _, [] => by simp [encLoop]
  | n + 1, i, b :: l => by
    have := encLoop_noShift aes dir addr fcnt n (i + 1) ((b :: l).drop 16)
    simpa [encLoop] using this

theorem encryptPayload_noShift (ss : Session) (buf : Bytes) (key : Block) (dir : Byte) : Ev.ubShift ∉ (encryptPayload E ss buf key dir).2 := by
  have := encLoop_noShift (E.aes key) dir ss.devAddr (if dir ≠ 0 then ss.fCntDown else ss.fCntUp) buf.length 1 buf
  simpa [encryptPayload] using this

theorem DHdr.plain_noShift (H : DHdr) (ss : Session) (d : U32) : Ev.ubShift ∉ (H.plain E ss d).2 := by
  unfold DHdr.plain; split
  · simp
  · simp
  · exact encryptPayload_noShift _ _ _ _

theorem buildUplink_noShift (s : St) (p : Byte) (l : Bytes) (c : Bool) : Ev.ubShift ∉ (buildUplink E s p l c).2 := by
  unfold buildUplink
  simp only [List.mem_append, not_or]
  refine ⟨?_, calcMic_noShift _ _ _ _ _⟩
  split
  · exact encryptPayload_noShift _ _ _ _
  · simp

theorem DataCase.shift {bat : Nat → Byte} {s : St} {pkt : DlPkt} {buf : Bytes} {e : Err} {s' : St} {p' : DlPkt}
    {ev : List Ev} (hc : DataCase E bat s pkt buf e s' p' ev) (h : Ev.ubShift ∈ ev) : ∃ b ∈ buf, 128 ≤ b.toNat := by
  have ha3 : ∀ H : DHdr, H.a3 ∈ H.bytes := fun H => by simp [DHdr.bytes]
  have hfo : ∀ H : DHdr, ∀ b ∈ H.fopts, b ∈ H.bytes := fun H b hb => by
    have : b ∈ H.rest := List.mem_of_mem_take hb
    simp [DHdr.bytes, this]
  have hmac : ∀ (H : DHdr) (ev1 : List Ev), (∀ e ∈ ev1, MacEv H.fopts e) → Ev.ubShift ∈ ev1 → ∃ b ∈ H.bytes, 128 ≤ b.toNat := by
    intro H ev1 hm h
    rcases hm _ h with ⟨_, _, h⟩ | h | ⟨_, _, _, h⟩ | ⟨-, b, hb, hh⟩
    · cases h
    · cases h
    · cases h
    · exact ⟨b, hfo H b hb, hh⟩
  cases hc with
  | short => cases h
  | mhdr => cases h
  | addr H hb => rw [hb]; exact ⟨_, ha3 H, (shiftMark_mem h).2⟩
  | fopts H hb => rw [hb]; exact ⟨_, ha3 H, (shiftMark_mem h).2⟩
  | fcnt H hb => rw [hb]; exact ⟨_, ha3 H, (shiftMark_mem h).2⟩
  | mic H d s2 ev1 hb hl ht ha hf hd hm =>
    rw [hb]
    rcases List.mem_append.mp h with h | h
    · rcases List.mem_append.mp h with h | h
      · exact ⟨_, ha3 H, (shiftMark_mem h).2⟩
      · exact hmac H ev1 (macLoop_macEv _ _ _ _ _ _ hm) h
    · exact absurd h (calcMic_noShift _ _ _ _ _)
  | good H d s2 ev1 fr hb hl ht ha hf hd hm =>
    rw [hb]
    rcases List.mem_append.mp h with h | h
    · rcases List.mem_append.mp h with h | h
      · rcases List.mem_append.mp h with h | h
        · exact ⟨_, ha3 H, (shiftMark_mem h).2⟩
        · exact hmac H ev1 (macLoop_macEv _ _ _ _ _ _ hm) h
      · exact absurd h (calcMic_noShift _ _ _ _ _)
    · exact absurd h (H.plain_noShift _ _)

theorem JoinCase.shift {s : St} {pkt : DlPkt} {buf : Bytes} {e : Err} {s' : St} {p' : DlPkt}
    {ev : List Ev} (hc : JoinCase E s pkt buf e s' p' ev) (h : Ev.ubShift ∈ ev) : ∃ b ∈ joinClear E s.appKey buf, 128 ≤ b.toNat := by
  have hdec : ∀ (k : Block) (b : List Block), Ev.ubShift ∉ joinDecEv k b := by
    intro k b; simp [joinDecEv]
  have hmic : ∀ (k : Block) (b : Bytes), Ev.ubShift ∉ joinMicEv k b := by
    intro k b; simp [joinMicEv]
  cases hc with
  | len => cases h
  | mhdr => cases h
  | mic blks fr hb hn =>
    rcases List.mem_append.mp h with h | h
    · exact absurd h (hdec _ _)
    · exact absurd h (hmic _ _)
  | good blks fr J c hb hn hlen hok hJ =>
    rw [← joinDec_eq _ _ hn _ hb, hJ]
    rcases List.mem_append.mp h with h | h
    · rcases List.mem_append.mp h with h | h
      · rcases List.mem_append.mp h with h | h
        · rcases List.mem_append.mp h with h | h
          · exact absurd h (hdec _ _)
          · exact absurd h (hmic _ _)
        · exact ⟨_, by simp [JMsg.bytes], (shiftMark_mem h).2⟩
      · simp [JMsg.nwk, deriveSessionKey] at h
    · simp [JMsg.app, deriveSessionKey] at h

theorem DlCase.shift {o : Oracle} {s : St} {err : Err} {s' : St} {ev : List Ev} (hc : DlCase E o s err s' ev) (h : Ev.ubShift ∈ ev) :
    ∃ b ∈ (if s.joinState then joinClear E s.appKey (o.rxData.take 255) else o.rxData.take 255), 128 ≤ b.toNat := by
  cases hc with
  | none => simp at h
  | join e s1 p ev1 he hj hc =>
    rw [if_pos hj]
    have : Ev.ubShift ∈ ev1 := by simpa using h
    exact hc.shift this
  | data e s1 p ev1 he hj hc =>
    rw [if_neg (by rw [hj]; exact Bool.false_ne_true)]
    have : Ev.ubShift ∈ ev1 := by simpa using h
    exact hc.shift this

theorem step_shift {s s' : St} {op : Op} {r : Ret} {ev : List Ev} (hi : Inv s) (hs : step E s op = .ok (r, s', ev))
    (h : Ev.ubShift ∈ ev) : ∃ m o, op = .event m o ∧
      ∃ b ∈ (if s.joinState then joinClear E s.appKey (o.rxData.take 255) else o.rxData.take 255), 128 ≤ b.toNat := by
  by_cases hc : op.isCfg = true
  · rw [(step_cfg hc hs).1] at h; cases h
  cases op with
  | init rg =>
    simp only [step, Except.ok.injEq, Prod.mk.injEq] at hs
    rw [← hs.2.2] at h
    simp [uwanInit] at h
  | join r1 r2 =>
    obtain ⟨e, rfl, hcs⟩ := step_join hi hs
    cases hcs with
    | state => cases h
    | channel => cases h
    | sent f d hp hg hf =>
      have := calcMic_noShift (E := E) s.session
      simp [joinEv, txSetup, buildJoin, this] at h
  | send p l c rn =>
    obtain ⟨e, rfl, hcs⟩ := step_send hi hs
    cases hcs with
    | state => cases h
    | channel => cases h
    | len => cases h
    | sent f d hp hg hf =>
      have := buildUplink_noShift (E := E) s p l c
      simp [sentEv, txSetup, this] at h
  | timer id =>
    obtain ⟨rfl, hev⟩ := step_timer hs
    rcases hev with rfl | ⟨rfl, hp⟩ <;> simp at h
  | event m o =>
    refine ⟨m, o, rfl, ?_⟩
    have hev := step_event hi hs
    cases hev with
    | ignore => cases h
    | txDone mm ev2 hp hm hmac =>
      have h : Ev.ubShift ∈ ev2 := by simpa using h
      unfold macOnTxComplete at hmac
      split at hmac
      · split at hmac
        · cases hmac
        · split at hmac <;> simp only [Except.ok.injEq, Prod.mk.injEq] at hmac <;> rw [← hmac.2] at h <;> simp at h
      · simp only [Except.ok.injEq, Prod.mk.injEq] at hmac; rw [← hmac.2] at h; cases h
    | rx1Timeout d hp hm => simp at h
    | rx1Done _ ev hp _ _ hc =>
      have : Ev.ubShift ∈ ev := by simpa using h
      exact hc.shift this
    | rx2Timeout _ ev hp _ hc => exact hc.shift h
    | rx2Done _ ev hp _ _ hc => exact hc.shift h
  | _ => exact absurd rfl hc

end Uwan
