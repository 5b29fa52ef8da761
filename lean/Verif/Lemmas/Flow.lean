import Verif.Lemmas.Inv

/-! What the big functions of `src/stack.c` do in every state that satisfies the invariant, as case lists. -/

namespace Uwan

/-! ### Tables and small facts -/

theorem drTable_lt {n : Nat} (h : n < 6) : ∃ sf, drTable n = some (sf, .bw125) ∧ sf ≠ .sf6 := by
  have : n = 0 ∨ n = 1 ∨ n = 2 ∨ n = 3 ∨ n = 4 ∨ n = 5 := by omega
  rcases this with h | h | h | h | h | h <;> subst h <;> exact ⟨_, rfl, by decide⟩

theorem txPowerTable_lt {n : Nat} (h : n < 8) : txPowerTable n = some (2 * n) := by
  have : n = 0 ∨ n = 1 ∨ n = 2 ∨ n = 3 ∨ n = 4 ∨ n = 5 ∨ n = 6 ∨ n = 7 := by omega
  rcases this with h | h | h | h | h | h | h | h <;> subst h <;> rfl

theorem applyTxPower_ok {s : St} (h : s.txPower.toNat < 8) :
    applyTxPower s = .ok [.setPower (BitVec.ofInt 8 (s.maxEirp.toInt - 2 * (s.txPower.toNat : Int)))] := by
  unfold applyTxPower
  rw [txPowerTable_lt h]
  simp [orOob, bind, Except.bind]

theorem blit_ok {dst : Bytes} {off : Nat} {src : Bytes} (h : off + src.length ≤ dst.length) :
    ∃ d, orOob (blit dst off src) = .ok d ∧ d.length = dst.length := by
  refine ⟨_, by unfold blit; rw [if_pos h]; rfl, ?_⟩
  simp; omega

theorem blit_zero {dst src : Bytes} (h : src.length ≤ dst.length) :
    blit dst 0 src = some (src ++ dst.drop src.length) := by
  unfold blit; rw [if_pos (by omega)]; simp

theorem encLoop_length (aes : Block → Block) (dir : Byte) (addr fcnt : U32) :
    ∀ n i l, l.length ≤ n → (encLoop aes dir addr fcnt n i l).1.length = l.length
  | 0, _, [], _ => rfl
  | 0, _, _ :: _, h => by simp at h
  | _ + 1, _, [], _ => rfl
  | n + 1, i, b :: l, h => by
    have ih := encLoop_length aes dir addr fcnt n (i + 1) ((b :: l).drop 16) (by simp at h ⊢; omega)
    simp only [encLoop, List.length_append, List.length_zipWith, ih]
    simp only [List.length_take, List.length_drop, Vector.length_toList]
    omega

theorem encryptPayload_length (E : Env) (ss : Session) (buf : Bytes) (key : Block) (dir : Byte) :
    (encryptPayload E ss buf key dir).1.length = buf.length :=
  encLoop_length _ _ _ _ _ _ _ (Nat.le_refl _)

theorem calcMic_length (E : Env) (ss : Session) (msg : Bytes) (key : Block) (dir : Byte) (b0 : Bool) :
    (calcMic E ss msg key dir b0).1.length = 4 := by
  simp [calcMic]

theorem currentDr_lt {s : St} (h : Inv s) : currentDr s < 6 := by
  unfold currentDr; split
  · exact h.dr
  · exact h.defaultDr

/-- N(DR) of the payload table. -/
theorem maxAppPldSize_le {n k : Nat} (h : maxAppPldSize n = some k) : k ≤ 222 := by
  unfold maxAppPldSize at h
  match n with
  | 0 | 1 | 2 | 3 | 4 | 5 => simp at h; omega
  | n + 6 => simp at h

theorem getMaxPayloadSize_add {s : St} (hp : 0 < getMaxPayloadSize s) :
    getMaxPayloadSize s + s.mac.queue.length = (maxAppPldSize (currentDr s)).getD 0 := by
  unfold getMaxPayloadSize at *
  simp only at *
  split at hp
  · rw [if_pos (by assumption)]; omega
  · omega

theorem macGetPayload_eq {m : Mac} (h : m.queue.length ≤ 15) :
    macGetPayload m 15 = (m.queue, { m with queue := [] }) := by
  unfold macGetPayload; rw [if_pos h]

theorem buildUplink_length (E : Env) {s : St} (h : s.mac.queue.length ≤ 15) (port : Byte) (pld : Bytes) (c : Bool) :
    (buildUplink E s port pld c).1.length =
      12 + s.mac.queue.length + (if pld.length = 0 then 0 else pld.length + 1) := by
  unfold buildUplink
  simp only [macGetPayload_eq h]
  by_cases hp : pld.length = 0
  · simp [hp, calcMic_length]; omega
  · simp [hp, calcMic_length, encryptPayload_length]; omega

theorem buildUplink_le {E : Env} {s : St} (h : Inv s) {port : Byte} {pld : Bytes} {c : Bool}
    (hl : pld.length ≤ getMaxPayloadSize s) : (buildUplink E s port pld c).1.length ≤ 255 := by
  rw [buildUplink_length E h.queue]
  have hq := h.queue
  by_cases hp : pld.length = 0
  · simp [hp]; omega
  · have := getMaxPayloadSize_add (s := s) (by omega)
    have h2 : (maxAppPldSize (currentDr s)).getD 0 ≤ 222 := by
      cases e : maxAppPldSize (currentDr s) with
      | none => simp
      | some k => simpa using maxAppPldSize_le e
    simp only [hp, ↓reduceIte]; omega

theorem buildJoin_length (E : Env) (s : St) (n : U32) : (buildJoin E s n).1.length = 23 := by
  simp [buildJoin, calcMic_length]

/-! ### `uwan_send_frame` -/

/-- The packet parameters set for a transmission at data rate entry `d`. -/
def txPp (p : PktParams) (d : Sf × Bw) : PktParams := { p with sf := d.1, bw := d.2, invertedIq := false }

/-- The state after an accepted uplink, before ADR bookkeeping. -/
def sentSt0 (s : St) (d : Sf × Bw) (fr : Bytes) : St :=
  { s with
    pp := txPp s.pp d
    frame := fr
    mac := { s.mac with queue := [] }
    session := { s.session with ackRequired := false, fCntUp := s.session.fCntUp + 1 }
    rx1Delay := s.defaultRx1Delay
    rx2Delay := s.defaultRx1Delay + 1000
    phase := .tx }

/-- The state after an accepted uplink. -/
def sentSt (s : St) (d : Sf × Bw) (fr : Bytes) : St := adrHandleUplink (sentSt0 s d fr)

/-- The radio settings made before a transmission. -/
def txSetup (s : St) (d : Sf × Bw) (f : U32) : List Ev :=
  [.setFrequency f, .setup (txPp s.pp d),
   .setPower (BitVec.ofInt 8 (s.maxEirp.toInt - 2 * (s.txPower.toNat : Int)))]

/-- Effects of an accepted uplink. -/
def sentEv (E : Env) (s : St) (d : Sf × Bw) (f : U32) (port : Byte) (pld : Bytes) (c : Bool) : List Ev :=
  txSetup s d f ++ (buildUplink E s port pld c).2 ++ [.tx (buildUplink E s port pld c).1]

/-- The cases of `uwan_send_frame`. -/
inductive SendCase (E : Env) (s : St) (port : Byte) (pld : Bytes) (c : Bool) (rnd : Nat) :
    Err → St → List Ev → Prop where
  | state (hp : s.phase ≠ .idle) : SendCase E s port pld c rnd .state s []
  | channel (hp : s.phase = .idle) (hc : ∀ i, i < 16 → s.chan.mask.isSet i = false) :
      SendCase E s port pld c rnd .channel s []
  | len (f : U32) (hp : s.phase = .idle) (hf : IsPick s.chan f)
      (hl : getMaxPayloadSize s < pld.length ∨ pld.length = 0 ∧ s.mac.queue.length = 0) :
      SendCase E s port pld c rnd .msgLen s []
  | sent (f : U32) (d : Sf × Bw) (hp : s.phase = .idle) (hg : channelsGetNext s.chan rnd = .ok f)
      (hf : IsPick s.chan f) (hl : pld.length ≤ getMaxPayloadSize s)
      (hn : ¬(pld.length = 0 ∧ s.mac.queue.length = 0)) (hd : drTable (currentDr s) = some d)
      (hd1 : d.2 = .bw125) (hd2 : d.1 ≠ .sf6) (hlen : (buildUplink E s port pld c).1.length ≤ 255) :
      SendCase E s port pld c rnd .no
        (sentSt s d ((buildUplink E s port pld c).1 ++ s.frame.drop (buildUplink E s port pld c).1.length))
        (sentEv E s d f port pld c)

theorem sendFrame_cases (E : Env) {s : St} (h : Inv s) (port : Byte) (pld : Bytes) (c : Bool) (rnd : Nat) :
    ∃ e s' ev, sendFrame E s port pld c rnd = .ok (e, s', ev) ∧ SendCase E s port pld c rnd e s' ev := by
  unfold sendFrame
  by_cases hp : s.phase = .idle
  rotate_left
  · rw [if_pos hp]; exact ⟨_, _, _, rfl, .state hp⟩
  rw [if_neg (by simpa using hp)]
  rcases channelsGetNext_spec h.chan rnd with ⟨f, hg, hf⟩ | ⟨hg, hc⟩
  rotate_left
  · simp only [hg, bind, Except.bind, ↓reduceIte]; exact ⟨_, _, _, rfl, .channel hp hc⟩
  have hne := hf.ne_zero h.chan
  simp only [hg, bind, Except.bind, hne, ↓reduceIte]
  by_cases hl : pld.length > getMaxPayloadSize s
  · simp only [hl, ↓reduceIte]; exact ⟨_, _, _, rfl, .len f hp hf (.inl hl)⟩
  simp only [hl, ↓reduceIte]
  by_cases hn : pld.length = 0 ∧ s.mac.queue.length = 0
  · simp only [hn, and_self, ↓reduceIte]; exact ⟨_, _, _, rfl, .len f hp hf (.inr hn)⟩
  simp only [hn, ↓reduceIte]
  obtain ⟨sf, hd, hsf⟩ := drTable_lt (currentDr_lt h)
  simp only [hd, orOob]
  have ep : applyTxPower { s with pp := { s.pp with sf := sf, bw := .bw125, invertedIq := false } } = _ :=
    applyTxPower_ok (s := { s with pp := { s.pp with sf := sf, bw := .bw125, invertedIq := false } }) h.txPower
  simp only [ep]
  have hl' := buildUplink_le (E := E) h (port := port) (c := c) (Nat.le_of_not_gt hl)
  have e : buildUplink E { s with pp := { s.pp with sf := sf, bw := .bw125, invertedIq := false } } port pld c =
      buildUplink E s port pld c := rfl
  simp only [e]
  rw [blit_zero (by rw [h.frame]; exact hl')]
  simp only [macGetPayload_eq h.queue]
  exact ⟨_, _, _, rfl, .sent f (sf, .bw125) hp hg hf (Nat.le_of_not_gt hl) hn hd rfl hsf hl'⟩

/-! ### `uwan_join` -/

/-- The DevNonce drawn. -/
def nonceOf (rnd2 : Nat) : U32 := BitVec.ofNat 32 (rnd2 % 65536)

/-- The state after an accepted join request. -/
def joinedSt (s : St) (d : Sf × Bw) (rnd2 : Nat) (fr : Bytes) : St :=
  { s with
    pp := txPp s.pp d
    session := { s.session with isJoined := false }
    joinState := true
    devNonce := nonceOf rnd2
    frame := fr
    rx1Delay := 5000
    rx2Delay := 5000 + 1000
    phase := .tx }

/-- Effects of an accepted join request. -/
def joinEv (E : Env) (s : St) (d : Sf × Bw) (f : U32) (rnd2 : Nat) : List Ev :=
  txSetup s d f ++ (buildJoin E s (nonceOf rnd2)).2 ++ [.tx (buildJoin E s (nonceOf rnd2)).1]

/-- The cases of `uwan_join`. -/
inductive JoinReqCase (E : Env) (s : St) (rnd1 rnd2 : Nat) : Err → St → List Ev → Prop where
  | state (hp : s.phase ≠ .idle) : JoinReqCase E s rnd1 rnd2 .state s []
  | channel (hp : s.phase = .idle) (hc : ∀ i, i < 16 → s.chan.mask.isSet i = false) :
      JoinReqCase E s rnd1 rnd2 .channel s []
  | sent (f : U32) (d : Sf × Bw) (hp : s.phase = .idle) (hg : channelsGetNext s.chan rnd1 = .ok f)
      (hf : IsPick s.chan f) (hd : drTable s.defaultDr = some d) (hd1 : d.2 = .bw125) (hd2 : d.1 ≠ .sf6) :
      JoinReqCase E s rnd1 rnd2 .no
        (joinedSt s d rnd2 ((buildJoin E s (nonceOf rnd2)).1 ++ s.frame.drop 23)) (joinEv E s d f rnd2)

theorem uwanJoin_cases (E : Env) {s : St} (h : Inv s) (rnd1 rnd2 : Nat) :
    ∃ e s' ev, uwanJoin E s rnd1 rnd2 = .ok (e, s', ev) ∧ JoinReqCase E s rnd1 rnd2 e s' ev := by
  unfold uwanJoin
  by_cases hp : s.phase = .idle
  rotate_left
  · rw [if_pos hp]; exact ⟨_, _, _, rfl, .state hp⟩
  rw [if_neg (by simpa using hp)]
  rcases channelsGetNext_spec h.chan rnd1 with ⟨f, hg, hf⟩ | ⟨hg, hc⟩
  rotate_left
  · simp only [hg, bind, Except.bind, ↓reduceIte]; exact ⟨_, _, _, rfl, .channel hp hc⟩
  have hne := hf.ne_zero h.chan
  simp only [hg, bind, Except.bind, hne, ↓reduceIte]
  obtain ⟨sf, hd, hsf⟩ := drTable_lt h.defaultDr
  simp only [hd, orOob]
  have ep : applyTxPower { s with pp := { s.pp with sf := sf, bw := .bw125, invertedIq := false } } = _ :=
    applyTxPower_ok (s := { s with pp := { s.pp with sf := sf, bw := .bw125, invertedIq := false } }) h.txPower
  simp only [ep]
  have e : buildJoin E { s with pp := { s.pp with sf := sf, bw := .bw125, invertedIq := false } }
      (BitVec.ofNat 32 (rnd2 % 65536)) = buildJoin E s (nonceOf rnd2) := rfl
  simp only [e]
  have hl := buildJoin_length E s (nonceOf rnd2)
  rw [blit_zero (by rw [h.frame, hl]; decide), hl]
  exact ⟨_, _, _, rfl, .sent f (sf, .bw125) hp hg hf hd rfl hsf⟩

end Uwan
