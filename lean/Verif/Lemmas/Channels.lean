import Verif.Model.Channels

/-! Helper lemmas about the channel table. -/

namespace Uwan

theorem byte_and_bit (b : Byte) (k : Nat) (hk : k < 8) :
    ((b &&& (1#8 <<< k)) != 0) = b.getLsbD k := by
  have h : ∀ b : Fin 256, ∀ k : Fin 8,
      (((⟨b⟩ : Byte) &&& (1#8 <<< k.val)) != 0) = (⟨b⟩ : Byte).getLsbD k.val := by decide +kernel
  exact h b.toFin ⟨k, hk⟩

theorem byte_or_bit (b : Byte) (k j : Nat) (hj : j < 8) :
    (b ||| (1#8 <<< k)).getLsbD j = (decide (j = k) || b.getLsbD j) := by
  rw [BitVec.getLsbD_or, BitVec.getLsbD_shiftLeft]
  by_cases h : j = k
  · subst h; simp [hj]
  · by_cases h2 : j < k
    · simp [h, h2]
    · have : j - k ≠ 0 := by omega
      simp [h, h2, this, BitVec.getLsbD_one]

theorem byte_andnot_bit (b : Byte) (k j : Nat) (hj : j < 8) :
    (b &&& ~~~(1#8 <<< k)).getLsbD j = (!decide (j = k) && b.getLsbD j) := by
  rw [BitVec.getLsbD_and, BitVec.getLsbD_not, BitVec.getLsbD_shiftLeft]
  by_cases h : j = k
  · subst h; simp [hj]
  · by_cases h2 : j < k
    · simp [h, h2, hj]
    · have : j - k ≠ 0 := by omega
      simp [h, h2, this, hj, BitVec.getLsbD_one]

theorem Mask.isSet_eq (m : Mask) (i : Nat) : m.isSet i = (m.byte (i / 8)).getLsbD (i % 8) := by
  unfold Mask.isSet; exact byte_and_bit _ _ (Nat.mod_lt _ (by decide))

theorem Mask.byte_setByte (m : Mask) (k j : Nat) (v : Byte) (hk : k < 2) (hj : j < 2) :
    (m.setByte k v).byte j = if j = k then v else m.byte j := by
  unfold Mask.setByte Mask.byte
  have h1 : k = 0 ∨ k = 1 := by omega
  have h2 : j = 0 ∨ j = 1 := by omega
  rcases h1 with rfl | rfl <;> rcases h2 with rfl | rfl <;> simp

theorem Mask.isSet_set (m : Mask) (i j : Nat) (hi : i < 16) (hj : j < 16) :
    (m.set i).isSet j = (decide (j = i) || m.isSet j) := by
  rw [Mask.isSet_eq, Mask.isSet_eq]
  unfold Mask.set
  rw [Mask.byte_setByte _ _ _ _ (by omega) (by omega)]
  split
  · next h =>
    rw [byte_or_bit _ _ _ (Nat.mod_lt _ (by decide))]
    have : (j % 8 = i % 8) ↔ j = i := by omega
    simp [this, h]
  · next h =>
    have : j ≠ i := by omega
    simp [this]

theorem Mask.isSet_clear (m : Mask) (i j : Nat) (hi : i < 16) (hj : j < 16) :
    (m.clear i).isSet j = (!decide (j = i) && m.isSet j) := by
  rw [Mask.isSet_eq, Mask.isSet_eq]
  unfold Mask.clear
  rw [Mask.byte_setByte _ _ _ _ (by omega) (by omega)]
  split
  · next h =>
    rw [byte_andnot_bit _ _ _ (Nat.mod_lt _ (by decide))]
    have : (j % 8 = i % 8) ↔ j = i := by omega
    simp [this, h]
  · next h =>
    have : j ≠ i := by omega
    simp [this]

theorem Mask.isSet_zero (j : Nat) : (Mask.mk 0#8 0#8).isSet j = false := by
  rw [Mask.isSet_eq]; unfold Mask.byte; split <;> simp

/-! ## Well-formed channel tables -/

/-- Structural well-formedness of the channel table: enabled channels are below the high-water mark, which is at most 16, and
carry a legal frequency; every defined channel has a legal frequency. -/
structure ChanInv (c : Chan) : Prop where
  max_le : c.maxCount ≤ 16
  lt_max : ∀ i, i < 16 → c.mask.isSet i = true → i < c.maxCount
  defd : ∀ i, i < 16 → c.mask.isSet i = true → c.freqAt i ≠ 0
  legal : ∀ i, i < 16 → c.freqAt i ≠ 0 → isValidFrequency (c.freqAt i) = true

theorem validFreq_ne_zero {f : U32} (h : isValidFrequency f = true) : f ≠ 0 := by
  rintro rfl; simp [isValidFrequency] at h

theorem Chan.freqAt_set (c : Chan) (i j : Nat) (f : U32) (hi : i < 16) :
    ({ c with freq := c.freq.setIfInBounds i f } : Chan).freqAt j =
      if j = i then f else c.freqAt j := by
  unfold Chan.freqAt
  by_cases h : j < 16
  · simp only [h, Vector.getElem?_eq_getElem, Option.getD_some]
    rw [Vector.getElem_setIfInBounds]
    by_cases e : j = i
    · subst e; simp
    · have : ¬ i = j := fun h => e h.symm
      simp [e, this]
  · have : j ≠ i := by omega
    simp [this]
    rw [Vector.getElem?_eq_none (by omega), Vector.getElem?_eq_none (by omega)]

theorem ChanInv.turnOn {c : Chan} (h : ChanInv c) {i : Nat} (hi : i < 16) (hf : c.freqAt i ≠ 0) :
    ChanInv (c.turnOn i) := by
  have hfr : ∀ j, (c.turnOn i).freqAt j = c.freqAt j := fun _ => rfl
  refine ⟨?_, ?_, ?_, ?_⟩
  · have := h.max_le
    simp only [Chan.turnOn]; split <;> omega
  · intro j hj hs
    simp only [Chan.turnOn] at hs ⊢
    rw [Mask.isSet_set _ _ _ hi hj] at hs
    simp only [Bool.or_eq_true, decide_eq_true_eq] at hs
    rcases hs with rfl | hs
    · split <;> omega
    · have := h.lt_max j hj hs; split <;> omega
  · intro j hj hs
    rw [hfr]
    simp only [Chan.turnOn] at hs
    rw [Mask.isSet_set _ _ _ hi hj] at hs
    simp only [Bool.or_eq_true, decide_eq_true_eq] at hs
    rcases hs with rfl | hs
    · exact hf
    · exact h.defd j hj hs
  · intro j hj; rw [hfr]; exact h.legal j hj

/-! ### The loop that lowers the high-water mark -/

theorem lowerMax_succ (m : Mask) (n cur : Nat) :
    lowerMax m (n + 1) cur = if m.isSet n then n + 1 else lowerMax m n cur := by
  simp [lowerMax, List.range_succ, List.foldl_append]

theorem lowerMax_bound (m : Mask) : ∀ n cur j, j < n → m.isSet j = true → j < lowerMax m n cur
  | 0, _, _, h, _ => by omega
  | n + 1, cur, j, h, hs => by
    rw [lowerMax_succ]
    split
    · omega
    · next hn =>
      have : j ≠ n := by rintro rfl; exact hn hs
      exact lowerMax_bound m n cur j (by omega) hs

theorem lowerMax_le (m : Mask) : ∀ n cur, n ≤ cur → lowerMax m n cur ≤ cur
  | 0, _, _ => by simp [lowerMax]
  | n + 1, cur, h => by
    rw [lowerMax_succ]
    split
    · omega
    · exact lowerMax_le m n cur (by omega)

theorem ChanInv.enableChannel {c : Chan} (h : ChanInv c) (i : Nat) (en : Bool) :
    ChanInv (enableChannel c i en).2 := by
  unfold Uwan.enableChannel
  split
  · exact h
  next hi =>
  have hi : i < 16 := by omega
  cases en with
  | true =>
    simp only [↓reduceIte]
    split
    · exact h
    next hf => exact h.turnOn hi hf
  | false =>
    simp only [Bool.false_eq_true, ↓reduceIte]
    refine ⟨?_, ?_, ?_, ?_⟩
    · have := h.max_le
      simp only; split
      · next he => rw [he]; have := lowerMax_le (c.mask.clear i) i (i + 1) (by omega); omega
      · omega
    · intro j hj hs
      simp only at hs ⊢
      have hs' := hs
      rw [Mask.isSet_clear _ _ _ hi hj] at hs'
      simp only [Bool.and_eq_true, Bool.not_eq_true', decide_eq_false_iff_not] at hs'
      have := h.lt_max j hj hs'.2
      split
      · next he => exact lowerMax_bound _ _ _ _ (by omega) hs
      · exact this
    · intro j hj hs
      simp only at hs
      rw [Mask.isSet_clear _ _ _ hi hj] at hs
      simp only [Bool.and_eq_true] at hs
      exact h.defd j hj hs.2
    · exact h.legal

theorem ChanInv.setChannel {c : Chan} (h : ChanInv c) (i : Nat) (f : U32) :
    ChanInv (setChannel c i f).2 := by
  unfold Uwan.setChannel
  split
  · exact h
  next hi =>
  split
  · exact h
  next hf =>
  have hf : isValidFrequency f = true := by simpa using hf
  have hi : i < 16 := by omega
  apply ChanInv.enableChannel
  refine ⟨h.max_le, h.lt_max, ?_, ?_⟩
  · intro j hj hs
    rw [Chan.freqAt_set _ _ _ _ hi]
    split
    · exact validFreq_ne_zero hf
    · exact h.defd j hj hs
  · intro j hj
    rw [Chan.freqAt_set _ _ _ _ hi]
    split
    · intro _; exact hf
    · exact h.legal j hj

theorem ChanInv.enableAll {c : Chan} (h : ChanInv c) : ChanInv (channelsEnableAll c) := by
  unfold channelsEnableAll
  suffices ∀ (l : List Nat) (c : Chan), ChanInv c → (∀ i ∈ l, i < 16) →
      ChanInv (l.foldl (fun c i => if c.freqAt i ≠ 0 then c.turnOn i else c) c) from
    this _ _ h (by simp)
  intro l
  induction l with
  | nil => intro c h _; exact h
  | cons a l ih =>
    intro c h hl
    simp only [List.foldl_cons]
    apply ih
    · split
      · next hf => exact h.turnOn (hl a (by simp)) hf
      · exact h
    · intro i hi; exact hl i (by simp [hi])

theorem ChanInv.init {c : Chan} (h : ∀ i, i < 16 → c.freqAt i ≠ 0 → isValidFrequency (c.freqAt i) = true) :
    ChanInv (channelsInit c) :=
  ⟨by simp [channelsInit], by intro i _ hs; simp [channelsInit, Mask.isSet_zero] at hs,
   by intro i _ hs; simp [channelsInit, Mask.isSet_zero] at hs, h⟩

/-! ### The search loop -/

/-- Result of a successful probe. -/
def IsPick (c : Chan) (f : U32) : Prop := ∃ i, i < 16 ∧ c.mask.isSet i = true ∧ f = c.freqAt i

/-- The loop started at `start` and now `k` steps further, `k < maxCount`, with all probed channels disabled. -/
theorem getNextLoop_spec {c : Chan} (h : ChanInv c) (start : Nat) (hs : start < c.maxCount) :
    ∀ (n k fuel : Nat), k + n = c.maxCount → n ≤ fuel →  1 ≤ n →
      (∀ j, j < k → c.mask.isSet ((start + j) % c.maxCount) = false) →
      (∃ f, getNextLoop c start fuel ((start + k) % c.maxCount) = .ok f ∧ IsPick c f) ∨
      (getNextLoop c start fuel ((start + k) % c.maxCount) = .ok 0 ∧
        ∀ j, j < c.maxCount → c.mask.isSet ((start + j) % c.maxCount) = false) := by
  intro n
  induction n with
  | zero => intro k fuel _ _ h1; omega
  | succ n ih =>
    intro k fuel hk hfuel _ hoff
    have hm := h.max_le
    obtain ⟨fuel, rfl⟩ : ∃ m, fuel = m + 1 := ⟨fuel - 1, by omega⟩
    have hlt : (start + k) % c.maxCount < c.maxCount := Nat.mod_lt _ (by omega)
    rw [getNextLoop]
    rw [if_neg (by omega)]
    by_cases hset : c.mask.isSet ((start + k) % c.maxCount) = true
    · rw [if_pos hset]
      exact .inl ⟨_, rfl, _, by omega, hset, rfl⟩
    · rw [if_neg hset]
      have hnext : ((start + k) % c.maxCount + 1) % c.maxCount % 256 = (start + (k + 1)) % c.maxCount := by
        have : ((start + k) % c.maxCount + 1) % c.maxCount < c.maxCount := Nat.mod_lt _ (by omega)
        rw [Nat.mod_eq_of_lt (a := ((start + k) % c.maxCount + 1) % c.maxCount) (by omega)]
        rw [Nat.mod_add_mod]; rfl
      simp only [hnext]
      have hoff' : ∀ j, j < k + 1 → c.mask.isSet ((start + j) % c.maxCount) = false := by
        intro j hj
        by_cases e : j = k
        · subst e; simpa using hset
        · exact hoff j (by omega)
      by_cases hn : n = 0
      · subst hn
        have : k + 1 = c.maxCount := by omega
        have e : (start + (k + 1)) % c.maxCount = start := by
          rw [this, Nat.add_mod_right, Nat.mod_eq_of_lt hs]
        rw [e]
        right
        refine ⟨by simp, ?_⟩
        rw [← this]; rwa [this] at hoff' ⊢
      · have hne : start ≠ (start + (k + 1)) % c.maxCount := by
          intro e
          by_cases hlt : start + (k + 1) < c.maxCount
          · rw [Nat.mod_eq_of_lt hlt] at e; omega
          · rw [Nat.mod_eq_sub_mod (by omega), Nat.mod_eq_of_lt (by omega)] at e; omega
        rw [if_pos hne]
        exact ih (k + 1) fuel (by omega) (by omega) (by omega) hoff'

/-- `channels_get_next` always ends; it finds an enabled channel, or returns 0 when there is none. -/
theorem channelsGetNext_spec {c : Chan} (h : ChanInv c) (rnd : Nat) :
    (∃ f, channelsGetNext c rnd = .ok f ∧ IsPick c f) ∨
    (channelsGetNext c rnd = .ok 0 ∧ ∀ i, i < 16 → c.mask.isSet i = false) := by
  unfold channelsGetNext
  by_cases h0 : c.maxCount = 0
  · right
    rw [if_pos h0]
    refine ⟨rfl, fun i hi => ?_⟩
    cases hs : c.mask.isSet i
    · rfl
    · have := h.lt_max i hi hs; omega
  · rw [if_neg h0]
    have hm := h.max_le
    have hlt : rnd % c.maxCount < c.maxCount := Nat.mod_lt _ (by omega)
    have e : rnd % c.maxCount % 256 = rnd % c.maxCount := Nat.mod_eq_of_lt (by omega)
    simp only [e]
    have := getNextLoop_spec h (rnd % c.maxCount) hlt c.maxCount 0 256 (by omega) (by omega) (by omega)
      (by intro j hj; omega)
    rw [Nat.add_zero, Nat.mod_eq_of_lt hlt] at this
    rcases this with ⟨f, h1, h2⟩ | ⟨h1, h2⟩
    · exact .inl ⟨f, h1, h2⟩
    · right
      refine ⟨h1, fun i hi => ?_⟩
      cases hs : c.mask.isSet i
      · rfl
      · have hlt' := h.lt_max i hi hs
        -- every index below `maxCount` has been probed
        have hj : ∃ j, j < c.maxCount ∧ (rnd % c.maxCount + j) % c.maxCount = i := by
          by_cases hc : rnd % c.maxCount ≤ i
          · exact ⟨i - rnd % c.maxCount, by omega, by
              rw [show rnd % c.maxCount + (i - rnd % c.maxCount) = i by omega, Nat.mod_eq_of_lt hlt']⟩
          · refine ⟨i + c.maxCount - rnd % c.maxCount, by omega, ?_⟩
            rw [show rnd % c.maxCount + (i + c.maxCount - rnd % c.maxCount) = i + c.maxCount by omega,
              Nat.add_mod_right, Nat.mod_eq_of_lt hlt']
        obtain ⟨j, hj, e⟩ := hj
        have := h2 j hj
        rw [e, hs] at this; exact this

theorem IsPick.ne_zero {c : Chan} (h : ChanInv c) {f : U32} (hp : IsPick c f) : f ≠ 0 := by
  obtain ⟨i, hi, hs, rfl⟩ := hp; exact h.defd i hi hs

theorem IsPick.valid {c : Chan} (h : ChanInv c) {f : U32} (hp : IsPick c f) : isValidFrequency f = true := by
  obtain ⟨i, hi, hs, rfl⟩ := hp; exact h.legal i hi (h.defd i hi hs)

end Uwan
