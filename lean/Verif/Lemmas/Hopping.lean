import Verif.Lemmas.Windows
import Verif.Lemmas.Same
import Verif.Lemmas.SyncHist
import Verif.Lemmas.Downlink
import Verif.Spec.Hopping
import Verif.Spec.Mac

/-!
# Which channel a random number picks
-/

namespace Uwan
open Spec

variable {E : Env}

theorem getNextLoop_find {c : Chan} (h : ChanInv c) {start : Nat} (hs : start < c.maxCount) : ∀ (k j fuel : Nat), j + k = c.maxCount →
    1 ≤ k → k ≤ fuel → getNextLoop c start fuel ((start + j) % c.maxCount) =
      .ok (match ((List.range' j k).map fun x => (start + x) % c.maxCount).find? (fun i => c.mask.isSet i) with
        | some i => c.freqAt i | none => 0) := by
  have hm := h.max_le
  intro k
  induction k with
  | zero => intro _ _ _ h1; omega
  | succ k ih =>
    intro j fuel hj _ hf
    obtain ⟨fuel, rfl⟩ : ∃ g, fuel = g + 1 := ⟨fuel - 1, by omega⟩
    have hlt : (start + j) % c.maxCount < c.maxCount := Nat.mod_lt _ (by omega)
    rw [getNextLoop, if_neg (by omega), List.range'_succ, List.map_cons, List.find?_cons]
    cases hb : c.mask.isSet ((start + j) % c.maxCount) with
    | true => rw [if_pos rfl]
    | false =>
      rw [if_neg (by simp)]
      have e : ((start + j) % c.maxCount + 1) % c.maxCount % 256 = (start + (j + 1)) % c.maxCount := by
        rw [Nat.mod_add_mod, Nat.mod_eq_of_lt (b := 256) (by have := Nat.mod_lt (start + j + 1) (show 0 < c.maxCount by omega); omega)]
        rfl
      simp only [e]
      by_cases hk : k = 0
      · subst hk
        rw [show start + (j + 1) = start + c.maxCount by omega, Nat.add_mod_right, Nat.mod_eq_of_lt hs, if_neg (by simp)]
        rfl
      · have hne : start ≠ (start + (j + 1)) % c.maxCount := by
          intro he
          by_cases hw : start + (j + 1) < c.maxCount
          · rw [Nat.mod_eq_of_lt hw] at he; omega
          · rw [Nat.mod_eq_sub_mod (by omega), Nat.mod_eq_of_lt (by omega)] at he; omega
        rw [if_pos hne, ih (j + 1) fuel (by omega) (by omega) (by omega)]

theorem find_congr {l : List Nat} {p q : Nat → Bool} (h : ∀ i ∈ l, p i = q i) : l.find? p = l.find? q := by
  induction l with
  | nil => rfl
  | cons a l ih =>
    rw [List.find?_cons, List.find?_cons, h a (List.mem_cons_self ..), ih fun i hi => h i (List.mem_cons_of_mem _ hi)]

/-- The channel a random number picks. -/
theorem channelsGetNext_find {c : Chan} (h : ChanInv c) (r : Nat) (h0 : c.maxCount ≠ 0) :
    channelsGetNext c r = .ok (match nextOn (chOn c) c.maxCount (r % c.maxCount) with | some i => c.freqAt i | none => 0) := by
  have hm := h.max_le
  have hlt : r % c.maxCount < c.maxCount := Nat.mod_lt _ (by omega)
  have e : r % c.maxCount % 256 = r % c.maxCount := Nat.mod_eq_of_lt (by omega)
  unfold channelsGetNext
  rw [if_neg h0]
  simp only [e]
  have := getNextLoop_find h hlt c.maxCount 0 256 (by omega) (by omega) (by omega)
  rw [Nat.add_zero, Nat.mod_eq_of_lt hlt] at this
  rw [this]
  unfold nextOn
  rw [List.range_eq_range', find_congr (q := chOn c)]
  intro i hi
  obtain ⟨k, -, rfl⟩ := List.mem_map.1 hi
  unfold chOn
  have := Nat.mod_lt (r % c.maxCount + k) (show 0 < c.maxCount by omega)
  rw [decide_eq_true (show (r % c.maxCount + k) % c.maxCount < 16 by omega), Bool.true_and]

theorem nextOn_mem {on : Nat → Bool} {m r i : Nat} (h : nextOn on m r = some i) : on i = true := List.find?_some h

/-! ### The high-water mark -/

/-- The mark is just above the highest enabled channel. -/
def Tight (c : Chan) : Prop := c.maxCount = 0 ∨ chOn c (c.maxCount - 1) = true

theorem on_turnOn (c : Chan) (i j : Nat) (hi : i < 16) : chOn (c.turnOn i) j = (decide (j = i) || chOn c j) := by
  unfold chOn
  show (decide (j < 16) && (c.mask.set i).isSet j) = _
  by_cases hj : j < 16
  · rw [Mask.isSet_set _ _ _ hi hj]
    by_cases hij : j = i
    · subst hij; simp [hi]
    · simp [hj, hij]
  · have : j ≠ i := by omega
    simp [hj, this]

theorem Tight.turnOn {c : Chan} (h : Tight c) {i : Nat} (hi : i < 16) : Tight (c.turnOn i) := by
  right
  rw [on_turnOn c i _ hi]
  show (decide ((if c.maxCount < i + 1 then i + 1 else c.maxCount) - 1 = i) ||
    chOn c ((if c.maxCount < i + 1 then i + 1 else c.maxCount) - 1)) = true
  split
  · simp
  · rcases h with h | h
    · omega
    · rw [h]; simp

theorem Tight.enable {c : Chan} (h : Tight c) (i : Nat) : Tight (enableChannel c i true).2 := by
  unfold enableChannel
  split
  · exact h
  · rw [if_pos rfl]
    split
    · exact h
    · exact h.turnOn (by omega)

theorem Tight.setChannel {c : Chan} (h : Tight c) (i : Nat) (f : U32) : Tight (setChannel c i f).2 := by
  unfold Uwan.setChannel
  split
  · exact h
  · split
    · exact h
    · have h' : Tight { c with freq := c.freq.setIfInBounds i f } := h
      exact Tight.enable h' i

theorem tight_init (c : Chan) (r : Region) : Tight (initChan r c) := by
  have h0 : Tight (channelsInit c) := .inl rfl
  cases r
  · exact ((h0.setChannel 0 868100000).setChannel 1 868300000).setChannel 2 868500000
  · exact (h0.setChannel 0 868900000).setChannel 1 869100000

/-! ### Going through channels in ascending order -/

/-- The mark is exact, or no channel is enabled and the mark is at most `k`. -/
def Loose (k : Nat) (c : Chan) : Prop := Tight c ∨ ((∀ j, chOn c j = false) ∧ c.maxCount ≤ k)

theorem Loose.up {k : Nat} {c : Chan} (h : Loose k c) : Loose (k + 1) c := by
  rcases h with h | ⟨h, h'⟩
  · exact .inl h
  · exact .inr ⟨h, by omega⟩

theorem Loose.turnOn {k : Nat} {c : Chan} (h : Loose k c) (hk : k < 16) : Tight (c.turnOn k) := by
  rcases h with h | ⟨-, h⟩
  · exact h.turnOn hk
  · right
    rw [on_turnOn c k _ hk]
    show (decide ((if c.maxCount < k + 1 then k + 1 else c.maxCount) - 1 = k) || _) = true
    rw [if_pos (by omega)]
    simp

/-- The mark found by the search below a disabled channel. -/
theorem lowerMax_on (m : Mask) : ∀ n cur, (lowerMax m n cur ≠ 0 ∧ lowerMax m n cur ≤ n ∧ m.isSet (lowerMax m n cur - 1) = true) ∨
    ((∀ j, j < n → m.isSet j = false) ∧ lowerMax m n cur = cur)
  | 0, _ => .inr ⟨by omega, rfl⟩
  | n + 1, cur => by
    rw [lowerMax_succ]
    cases hm : m.isSet n with
    | true => left; simp [hm]
    | false =>
      simp only [Bool.false_eq_true, if_false]
      rcases lowerMax_on m n cur with ⟨h1, h2, h3⟩ | ⟨h1, h2⟩
      · exact .inl ⟨h1, by omega, h3⟩
      · refine .inr ⟨fun j hj => ?_, h2⟩
        by_cases e : j = n
        · rw [e]; exact hm
        · exact h1 j (by omega)

theorem on_disable (c : Chan) {i : Nat} (hi : i < 16) (j : Nat) :
    chOn (enableChannel c i false).2 j = (!decide (j = i) && chOn c j) := by
  have := congrFun (chOn_enable c i false) j
  rw [this]
  simp [hi, upd]

theorem disable_max (c : Chan) {i : Nat} (hi : i < 16) : (enableChannel c i false).2.maxCount =
    if c.maxCount = i + 1 then lowerMax (c.mask.clear i) i c.maxCount else c.maxCount := by
  unfold enableChannel
  rw [if_neg (by omega)]
  rfl

theorem Loose.disable {k : Nat} {c : Chan} (hc : ChanInv c) (h : Loose k c) {i : Nat} (hi : i < 16) (hk : i < k ∨ i = k) :
    Loose (k + 1) (enableChannel c i false).2 := by
  have hon := on_disable c hi
  have hmax := disable_max c hi
  rcases h with h | ⟨h, h'⟩
  · by_cases hm : c.maxCount = i + 1
    · rw [if_pos hm] at hmax
      rcases lowerMax_on (c.mask.clear i) i c.maxCount with ⟨h1, h2, h3⟩ | ⟨h1, h2⟩
      · left; right
        rw [hmax]
        show (decide _ && (enableChannel c i false).2.mask.isSet _) = true
        rw [show (enableChannel c i false).2.mask = c.mask.clear i by
          unfold enableChannel; rw [if_neg (by omega)]; rfl, h3, decide_eq_true (by omega)]
        rfl
      · right
        refine ⟨fun j => ?_, by omega⟩
        rw [hon]
        by_cases hj : j < i
        · have := h1 j hj
          rw [Mask.isSet_clear _ _ _ hi (by omega)] at this
          have e : j ≠ i := by omega
          simp only [e, decide_false, Bool.not_false, Bool.true_and] at this ⊢
          unfold chOn; rw [this, Bool.and_false]
        · by_cases e : j = i
          · simp [e]
          · cases ho : chOn c j with
            | false => simp
            | true =>
              unfold chOn at ho
              rw [Bool.and_eq_true, decide_eq_true_eq] at ho
              have := hc.lt_max j ho.1 ho.2
              omega
    · rw [if_neg hm] at hmax
      left
      rcases h with h | h
      · exact .inl (by omega)
      · right
        rw [hmax, hon, h]
        simp; 
        by_cases h0 : c.maxCount = 0
        · unfold chOn at h
          rw [Bool.and_eq_true, decide_eq_true_eq] at h
          have := hc.lt_max _ h.1 h.2
          omega
        · omega
  · right
    refine ⟨fun j => by rw [hon, h j, Bool.and_false], ?_⟩
    rw [hmax]
    split
    · next hm => have := lowerMax_le (c.mask.clear i) i c.maxCount (by omega); omega
    · omega

theorem Loose.enable {k : Nat} {c : Chan} (hc : ChanInv c) (h : Loose k c) (hk : k < 16) (en : Bool) :
    Loose (k + 1) (enableChannel c k en).2 := by
  cases en with
  | false => exact h.disable hc hk (.inr rfl)
  | true =>
    unfold enableChannel
    rw [if_neg (by omega), if_pos rfl]
    split
    · exact h.up
    · exact .inl (h.turnOn hk)

theorem Loose.setChannel {k : Nat} {c : Chan} (h : Loose k c) (hk : k < 16) (f : U32) : Loose (k + 1) (setChannel c k f).2 := by
  unfold Uwan.setChannel
  rw [if_neg (by omega)]
  split
  · exact h.up
  · have h' : Loose k { c with freq := c.freq.setIfInBounds k f } := h
    simp only
    unfold enableChannel
    rw [if_neg (by omega), if_pos rfl]
    split
    · exact h'.up
    · exact .inl (h'.turnOn hk)

theorem Loose.result {k : Nat} {c : Chan} (h : Loose k c) : Tight c ∨ ∀ j, chOn c j = false := h.imp id And.left

theorem applyChMask_loose {c : Chan} (hc : ChanInv c) (h : Tight c) (m : U16) : Loose 16 (applyChMask c m) := by
  have : ∀ n, n ≤ 16 → ChanInv ((List.range n).foldl (fun c i => (enableChannel c i (m.getLsbD i)).2) c) ∧
      Loose n ((List.range n).foldl (fun c i => (enableChannel c i (m.getLsbD i)).2) c) := by
    intro n
    induction n with
    | zero => exact fun _ => ⟨hc, .inl h⟩
    | succ n ih =>
      intro hn
      obtain ⟨h1, h2⟩ := ih (by omega)
      rw [List.range_succ, List.foldl_append]
      exact ⟨h1.enableChannel _ _, h2.enable h1 (by omega) _⟩
  exact (this 16 (Nat.le_refl _)).2

theorem cflistLoop_loose (first : Nat) : ∀ (n idx : Nat) (l : Bytes) (c c' : Chan), idx + n + first ≤ 16 → ChanInv c →
    Loose (idx + first) c → cflistLoop first n idx l c = .ok c' → Loose (idx + n + first) c'
  | 0, idx, l, c, c', _, _, h, he => by
    rw [cflistLoop] at he
    cases he
    exact h
  | n + 1, idx, a :: b :: d :: l, c, c', hn, hc, h, he => by
    rw [cflistLoop] at he
    have hm : (idx + first) % 256 = idx + first := Nat.mod_eq_of_lt (by omega)
    rw [hm] at he
    have := cflistLoop_loose first n (idx + 1) l _ c' (by omega) ?_ ?_ he
    · rw [show idx + (n + 1) + first = idx + 1 + n + first by omega]; exact this
    · split
      · exact hc.enableChannel _ _
      · exact hc.setChannel _ _
    · rw [show idx + 1 + first = idx + first + 1 by omega]
      split
      · exact h.enable hc (by omega) _
      · exact h.setChannel (by omega) _
  | _ + 1, _, [], _, _, _, _, _, he => by rw [cflistLoop] at he; cases he; all_goals simp
  | _ + 1, _, [_], _, _, _, _, _, he => by rw [cflistLoop] at he; cases he; all_goals simp
  | _ + 1, _, [_, _], _, _, _, _, _, he => by rw [cflistLoop] at he; cases he; all_goals simp

/-! ### MAC commands -/

theorem Tight.of_loose {k : Nat} {c : Chan} (h : Loose k c) {j : Nat} (hj : chOn c j = true) : Tight c := by
  rcases h with h | ⟨h, -⟩
  · exact h
  · rw [h j] at hj; cases hj

theorem enqueue_chan (s : St) (cid : Byte) (l : Bytes) : (s.enqueue cid l).2.chan = s.chan := rfl

theorem linkReq_tight {s : St} (hc : ChanInv s.chan) (h : Tight s.chan) (a : Byte) {m : U16} (hm : m ≠ 0) (x : Byte) :
    Tight (adrHandleLinkReq s a m x).2.chan := by
  unfold adrHandleLinkReq
  rw [enqueue_chan]
  split
  · next h7 =>
    have e0 : (linkAdrApply s a m x).chan =
        (handleAdrChMask (setTxPowerInt (linkAdrNbTrans s (x &&& 0xf)) (a &&& 0xf)).2.chan m (linkAdrCntl x) false).2 := rfl
    have e1 : (setTxPowerInt (linkAdrNbTrans s (x &&& 0xf)) (a &&& 0xf)).2.chan = s.chan := by
      unfold setTxPowerInt; split <;> exact linkAdrNbTrans_chan _ _
    rw [e0, e1]
    rw [linkAdrStatus_eq7] at h7
    obtain ⟨-, h2, -⟩ := h7
    have hcn : linkAdrCntl x = 0 := by
      rw [handleAdrChMask_dry] at h2
      rw [linkAdrCntl_eq]
      cases hb : bit (x.toNat / 16 % 8) 2
      · rfl
      · rw [hb] at h2; simp at h2
    have hmask : chMaskOk s.chan m = true := by rw [hcn] at h2; simpa [handleAdrChMask] using h2
    rw [hcn, show (handleAdrChMask s.chan m 0 false).2 = applyChMask s.chan m by simp [handleAdrChMask]]
    have hbit : ∃ i, i < 16 ∧ m.getLsbD i = true := by
      by_cases he : ∃ i, i < 16 ∧ m.getLsbD i = true
      · exact he
      · refine absurd (BitVec.eq_of_getLsbD_eq fun i hi => ?_) hm
        cases hb : m.getLsbD i with
        | false => simp
        | true => exact absurd ⟨i, hi, hb⟩ he
    obtain ⟨i, hi, hb⟩ := hbit
    refine Tight.of_loose (applyChMask_loose hc h m) (j := i) ?_
    rw [chOn_applyChMask _ _ hmask]
    simp only [hi, if_true]
    rw [← getLsbD_bit]; exact hb
  · exact h

theorem runHandler_tight {k : MacHandler} {s s' : St} {pld : Bytes} {x : Byte} {ok : Bool} {ev : List Ev} (hc : ChanInv s.chan)
    (h : Tight s.chan) (hm : k = .linkAdr → ∀ a b c d r, pld = a :: b :: c :: d :: r → or16 b c ≠ 0)
    (he : runHandler k s pld x = .ok (ok, s', ev)) : Tight s'.chan := by
  cases k with
  | linkCheck =>
    simp only [runHandler] at he; unfold hLinkCheck at he; revert he
    repeat' split
    all_goals (intro he; cases he)
    all_goals exact h
  | linkAdr =>
    simp only [runHandler] at he; unfold hLinkAdr at he
    split at he
    · cases he
    · next a b c d r _ =>
      cases he
      exact linkReq_tight hc h a (hm rfl a b c d _ rfl) d
    · cases he
  | dutyCycle => simp only [runHandler] at he; cases he; exact h
  | rxParamSetup =>
    simp only [runHandler] at he; unfold hRxParamSetup at he
    split at he
    · cases he
      rw [enqueue_chan]
      split
      · unfold rxParamApply setRx2 setRx1DrOffset
        repeat' split
        all_goals exact h
      · exact h
    · cases he
  | devStatus =>
    simp only [runHandler] at he; unfold hDevStatus at he; revert he
    simp only
    repeat' split
    all_goals (intro he; cases he; exact h)
  | newChannel =>
    simp only [runHandler] at he; unfold hNewChannel at he
    split at he
    · cases he
      rw [enqueue_chan]
      unfold newChannelRes
      simp only
      repeat' split
      all_goals first | exact h | exact h.setChannel _ _
    · cases he
  | rxTimingSetup =>
    simp only [runHandler] at he; unfold hRxTimingSetup at he
    split at he
    · cases he
      rw [enqueue_chan]
      unfold setRx1Delay
      repeat' split
      all_goals exact h
    · cases he
  | txParamSetup => simp only [runHandler] at he; cases he; exact h
  | diChannel => simp only [runHandler] at he; cases he; exact h
  | deviceTime =>
    simp only [runHandler] at he; unfold hDeviceTime at he; revert he
    repeat' split
    all_goals (intro he; cases he)
    all_goals exact h

/-- The decoder of the specification reads the same commands as the table. -/
theorem decode_known {cid : Byte} {c : MacCommand} {rest : Bytes} (hf : macCommands.find? (fun c => c.cid == cid) = some c)
    (hl : c.pldSize ≤ rest.length) : ∃ cmd, decode (cid :: rest) = some (cmd, rest.drop c.pldSize) ∧
      (c.handler = .linkAdr → ∀ a b m d r, rest = a :: b :: m :: d :: r → ∃ x y z w, cmd = .linkAdrReq x y (leNat [b, m]) z w) := by
  have hcid : c.cid = cid := by
    have := List.find?_some hf
    exact eq_of_beq this
  have hmem := List.mem_of_find?_eq_some hf
  subst hcid
  unfold macCommands at hmem
  simp only [List.mem_cons, List.not_mem_nil, or_false] at hmem
  rcases hmem with rfl | rfl | rfl | rfl | rfl | rfl | rfl | rfl | rfl | rfl <;> simp only at hl
  · match rest, hl with
    | a :: b :: r, _ => exact ⟨_, rfl, by simp⟩
  · match rest, hl with
    | a :: b :: d :: e :: r, _ =>
      refine ⟨_, rfl, fun _ a' b' m' d' r' e' => ?_⟩
      cases e'
      exact ⟨_, _, _, _, rfl⟩
  · match rest, hl with
    | a :: r, _ => exact ⟨_, rfl, by simp⟩
  · match rest, hl with
    | a :: b :: d :: e :: r, _ => exact ⟨_, rfl, by simp⟩
  · exact ⟨_, rfl, by simp⟩
  · match rest, hl with
    | a :: b :: d :: e :: f :: r, _ => exact ⟨_, rfl, by simp⟩
  · match rest, hl with
    | a :: r, _ => exact ⟨_, rfl, by simp⟩
  · match rest, hl with
    | a :: r, _ => exact ⟨_, rfl, by simp⟩
  · match rest, hl with
    | a :: b :: d :: e :: r, _ => exact ⟨_, rfl, by simp⟩
  · match rest, hl with
    | a :: b :: d :: e :: f :: r, _ => exact ⟨_, rfl, by simp⟩

theorem or16_ne_zero {b c : Byte} (h : leNat [b, c] ≠ 0) : or16 b c ≠ 0 := by
  intro e
  apply h
  rw [← or16_toNat, e]
  rfl

theorem macLoop_tight (bat : Nat → Byte) : ∀ (n m : Nat) (s s' : St) (l : Bytes) (ev : List Ev), Inv s → s.region.isSome = true →
    l.length ≤ m → macLoop bat n s l = .ok (s', ev) → ((commands m l).all fun x => !empties x.1) = true → Tight s.chan → Tight s'.chan := by
  intro n
  induction n with
  | zero =>
    intro m s s' l ev hi hr hm he ha ht
    cases l with
    | nil => rw [macLoop] at he; cases he; exact ht
    | cons b l => rw [macLoop] at he; cases he
  | succ n ih =>
    intro m s s' l ev hi hr hm he ha ht
    match l with
    | [] => rw [macLoop] at he; cases he; exact ht
    | cid :: rest =>
      cases hf : macCommands.find? (fun c => c.cid == cid) with
      | none => rw [macLoop_unknown bat n hf] at he; cases he; exact ht
      | some c =>
        by_cases hl : c.pldSize ≤ rest.length
        · obtain ⟨cmd, hd, hlink⟩ := decode_known hf hl
          obtain ⟨m, rfl⟩ : ∃ k, m = k + 1 := ⟨m - 1, by simp at hm; omega⟩
          simp only [commands, hd, List.all_cons, Bool.and_eq_true] at ha
          cases hr1 : runHandler c.handler s rest (bat rest.length) with
          | error u => simp only [macLoop, hf, if_pos hl, hr1, bind, Except.bind] at he; cases he
          | ok x =>
            obtain ⟨ok, s1, ev1⟩ := x
            obtain ⟨h1, hi1, hreg1⟩ := macLoop_known bat n hi hr hf hl hr1
            have ht1 : Tight s1.chan := by
              refine runHandler_tight hi.chan ht (fun hk a b c' d r e => or16_ne_zero ?_) hr1
              obtain ⟨x, y, z, w, rfl⟩ := hlink hk a b c' d r e
              have := ha.1
              simpa [empties] using this
            rw [h1] at he
            cases ok with
            | false => simp only [Bool.false_eq_true, if_false] at he; cases he; exact ht1
            | true =>
              simp only [if_true] at he
              cases hq : macLoop bat n s1 (rest.drop c.pldSize) with
              | error u => rw [hq] at he; simp [bind, Except.bind] at he
              | ok y =>
                rw [hq] at he
                simp only [bind, Except.bind, Except.ok.injEq, Prod.mk.injEq] at he
                rw [← he.1]
                exact ih m s1 y.1 _ y.2 hi1 hreg1 (by simp at hm ⊢; omega) hq ha.2 ht1
        · rw [macLoop_short bat n hf hl] at he; cases he; exact ht

/-! ### One operation -/

theorem DataCase.tight {bat : Nat → Byte} {s : St} {pkt : DlPkt} {buf : Bytes} {e : Err} {s' : St} {p' : DlPkt} {ev : List Ev}
    (h : Inv s) (hr : s.region.isSome = true) (hc : DataCase E bat s pkt buf e s' p' ev) (hk : silences buf = false)
    (ht : Tight s.chan) : Tight s'.chan := by
  have hmark : ∀ H : DHdr, (H.mark s).chan = s.chan := fun H => by unfold DHdr.mark markAck; split <;> rfl
  have key : ∀ (H : DHdr) (d : U32) (s2 : St) (ev1 : List Ev), buf = H.bytes → 12 ≤ buf.length → H.Typed → 12 + H.fo ≤ buf.length →
      macHandleCommands bat (H.count s d pkt.snr) H.fopts = .ok (s2, ev1) → Tight s2.chan := by
    intro H d s2 ev1 hb hl htp hf hm
    subst hb
    obtain ⟨f, hp, -, -, -, h4, -⟩ := H.parse hl hf
    refine macLoop_tight bat _ _ (H.count s d pkt.snr) s2 H.fopts ev1 ?_ ?_ (Nat.le_refl _) hm ?_ ?_
    · exact h.count H d pkt.snr
    · rw [(count_dl H s d pkt.snr).region]; exact hr
    · unfold silences at hk
      rw [(H.isDataDown hl).mpr htp, hp, Bool.true_and] at hk
      simp only [h4] at hk
      rw [List.all_eq_not_any_not]
      simpa using hk
    · show Tight (H.mark s).chan
      rw [hmark]; exact ht
  cases hc with
  | short => exact ht
  | mhdr => exact ht
  | addr H => rw [hmark]; exact ht
  | fopts H => rw [hmark]; exact ht
  | fcnt H => rw [hmark]; exact ht
  | mic H d s2 ev1 hb hl htp ha hf hd hm => exact key H d _ ev1 hb hl htp hf hm
  | good H d s2 ev1 fr hb hl htp ha hf hd hm => exact key H d s2 ev1 hb hl htp hf hm

theorem JoinCase.tight {s : St} {pkt : DlPkt} {buf : Bytes} {e : Err} {s' : St} {p' : DlPkt} {ev : List Ev} (h : Inv s)
    (hc : JoinCase E s pkt buf e s' p' ev) (ht : Tight s.chan) : Tight s'.chan ∨ ∀ j, chOn s'.chan j = false := by
  cases hc with
  | len => exact .inl ht
  | mhdr => exact .inl ht
  | mic => exact .inl ht
  | good blks fr J c hb hn hlen hm hJ hcf hci =>
    show Tight c ∨ ∀ j, chOn c j = false
    unfold joinCflist at hcf
    split at hcf
    · split at hcf
      · cases hcf
      · next r _ =>
        unfold handleCflist at hcf
        obtain ⟨ty, h1, h2⟩ := bind_ok hcf
        split at h2
        · cases h2; exact .inl ht
        · exact (cflistLoop_loose r.cflistFirst 5 0 J.rest s.chan c (by cases r <;> decide) h.chan (.inl ht) h2).result
    · cases hcf; exact .inl ht

theorem DlCase.tight {o : Oracle} {s s' : St} {err : Err} {ev : List Ev} (h : Inv s) (hr : s.region.isSome = true)
    (hc : DlCase E o s err s' ev) (hk : Ev.readPacket ∈ ev → silences (o.rxData.take 255) = false) (ht : Tight s.chan) :
    Tight s'.chan ∨ ∀ j, chOn s'.chan j = false := by
  cases hc with
  | none => exact .inl ht
  | join e s2 p ev2 he hj hc => exact JoinCase.tight (s' := s2) (h.frameUpd (rxSt_frame o h.frame) : Inv (rxSt o s)) hc ht
  | data e s2 p ev2 he hj hc => exact .inl (DataCase.tight (s' := s2) (h.frameUpd (rxSt_frame o h.frame) : Inv (rxSt o s)) hr hc (hk (by simp)) ht)

theorem step_tight {s s' : St} {op : Op} {r : Ret} {ev : List Ev} (hi : Inv s) (hs : step E s op = .ok (r, s', ev))
    (hk : keepsOn ⟨s, op, r, ev, s'⟩ = true) (ht : Tight s.chan) : Tight s'.chan ∨ ∀ j, chOn s'.chan j = false := by
  cases op with
  | init => cases hk
  | enableChannel i en =>
    cases hs
    cases en with
    | true => exact .inl (ht.enable _)
    | false =>
      by_cases h16 : i.toNat < 16
      · exact (Loose.disable (k := i.toNat) hi.chan (.inl ht) h16 (.inr rfl)).result
      · left
        show Tight (enableChannel s.chan i.toNat false).2
        unfold enableChannel
        rw [if_pos (by omega)]
        exact ht
  | setChannel i f => cases hs; exact .inl (ht.setChannel _ _)
  | join r1 r2 =>
    obtain ⟨e, rfl, hj⟩ := step_join hi hs
    cases hj <;> exact .inl ht
  | send port pld c rnd =>
    obtain ⟨e, rfl, hj⟩ := step_send hi hs
    cases hj with
    | sent f d hp hg hf hl hn hd hd1 hd2 hlen =>
      have : (sentSt s d ((buildUplink E s port pld c).1 ++ s.frame.drop (buildUplink E s port pld c).1.length)).chan = s.chan := by
        unfold sentSt adrHandleUplink; simp only; split <;> rfl
      rw [this]; exact .inl ht
    | _ => exact .inl ht
  | timer id => obtain ⟨rfl, -⟩ := step_timer hs; exact .inl ht
  | event m o =>
    have hr : Ev.readPacket ∈ ev → silences (o.rxData.take 255) = false := by
      intro hm
      simpa [keepsOn, hm] using hk
    have hi0 : s.phase ≠ .notInit → Inv { s with phase := .idle } := fun h => { hi with region := fun _ => hi.region h }
    cases step_event hi hs with
    | ignore => exact .inl ht
    | txDone => exact .inl ht
    | rx1Timeout => exact .inl ht
    | rx1Done s1 ev1 hp h1 h2 hc => exact hc.tight (hi0 (by rw [hp]; decide)) (hi.region (by rw [hp]; decide)) (fun h => hr (by simp [h])) ht
    | rx2Timeout _ _ hp hm hc => exact hc.tight (hi0 (by rw [hp]; decide)) (hi.region (by rw [hp]; decide)) hr ht
    | rx2Done _ _ hp h1 hm hc => exact hc.tight (hi0 (by rw [hp]; decide)) (hi.region (by rw [hp]; decide)) hr ht
  | setRx2 f d => cases hs; left; unfold setRx2; split; exact ht; split <;> exact ht
  | setDr d => cases hs; left; unfold setDr; split <;> exact ht
  | setNbTrans n => cases hs; left; unfold setNbTrans setNbTransInt; split <;> exact ht
  | setTxPower n => cases hs; left; unfold setTxPower setTxPowerInt; split <;> exact ht
  | setRx1DrOffset n => cases hs; left; unfold setRx1DrOffset; split <;> exact ht
  | setRx1Delay n => cases hs; left; unfold setRx1Delay; split <;> exact ht
  | _ => cases hs; exact .inl ht

theorem seg_tight {log post : List Item} {s s' : St} (h : Hist E log s) (hs : Seg E s post s') (ht : Tight s.chan)
    (hk : ∀ it ∈ post, keepsOn it = true)
    (ha : ∀ p q, post = p ++ q → (config E (log ++ p)).audible) : Tight s'.chan := by
  induction hs with
  | nil => exact ht
  | snoc g hv hs ih =>
    have h1 := ih (fun it hit => hk it (List.mem_append_left _ hit)) fun p q e => ha p (q ++ _) (by rw [e, List.append_assoc])
    have h2 := Seg.hist h g
    have h3 := h2.snoc hv hs
    rcases step_tight (Hist.inv h2) hs (hk _ (List.mem_append_right _ (List.mem_singleton_self _))) h1 with h4 | h4
    · exact h4
    · obtain ⟨j, -, hj⟩ := ha _ [] (by rw [List.append_nil])
      rw [← List.append_assoc, ← config_hist h3] at hj
      have : chOn _ j = true := hj
      rw [h4 j] at this
      cases this

theorem tight_top {c : Chan} (h : ChanInv c) (ht : Tight c) {n : Nat} (hn : 0 < n) (hon : ∀ i, chOn c i = decide (i < n)) :
    c.maxCount = n := by
  have h1 : chOn c (n - 1) = true := by rw [hon]; simp; omega
  have h2 : n - 1 < c.maxCount := by
    unfold chOn at h1
    rw [Bool.and_eq_true, decide_eq_true_eq] at h1
    exact h.lt_max _ h1.1 h1.2
  rcases ht with ht | ht
  · omega
  · rw [hon, decide_eq_true_eq] at ht; omega

theorem nextOn_below {n r : Nat} (hr : r < n) {on : Nat → Bool} (hon : ∀ i, on i = decide (i < n)) : nextOn on n r = some r := by
  obtain ⟨m, rfl⟩ : ∃ m, n = m + 1 := ⟨n - 1, by omega⟩
  unfold nextOn
  rw [List.range_succ_eq_map, List.map_cons, List.find?_cons, Nat.add_zero, Nat.mod_eq_of_lt hr, hon, decide_eq_true hr]

end Uwan
