import Verif.Lemmas.Windows
import Verif.Tests.Demo

/-!
# Channels (C16-C19, C42, C43)

`chFreq s.chan i` is the frequency the stack holds for channel `i` (0 if undefined), `chOn s.chan i` says whether the channel is enabled.
-/

namespace Uwan
open Spec

variable {E : Env} {log : List Item} {it : Item} {s' : St}

/-! ### C16, C17 -/

theorem IsPick.on {c : Chan} {f : U32} (h : IsPick c f) : ∃ i, i < 16 ∧ chOn c i = true ∧ chFreq c i = f.toNat := by
  obtain ⟨i, hi, hs, rfl⟩ := h
  exact ⟨i, hi, by unfold chOn; rw [hs]; simp [hi], rfl⟩

/-- C16: an accepted uplink or join-request goes out on the frequency of an enabled channel. -/
theorem C16_enabled (h : Hist E (log ++ [it]) s') (hs : sentItem it = true) :
    ∃ i, i < 16 ∧ (config E log).on i = true ∧ (config E log).freq i ≠ 0 ∧
      (radio (trace (log ++ [it]))).txFreq = (config E log).freq i := by
  unfold sentItem at hs
  cases hop : it.op with
  | send p l c r =>
    rw [hop] at hs
    obtain ⟨s, f, d, ha⟩ := h.accepted hop (by simpa using hs)
    obtain ⟨i, hi, h1, h2⟩ := ha.pick.on
    rw [← config_hist ha.hist]
    refine ⟨i, hi, h1, ?_, ?_⟩
    · show chFreq s.chan i ≠ 0
      rw [h2]
      exact toNat_ne_zero.mpr (ha.pick.ne_zero ha.inv.chan)
    · rw [radio_trace, ha.ev, radio_sentEv]; exact h2.symm
  | join r1 r2 =>
    rw [hop] at hs
    obtain ⟨s, f, d, ha⟩ := h.joinSent hop (by simpa using hs)
    obtain ⟨i, hi, h1, h2⟩ := ha.pick.on
    rw [← config_hist ha.hist]
    refine ⟨i, hi, h1, ?_, ?_⟩
    · show chFreq s.chan i ≠ 0
      rw [h2]
      exact toNat_ne_zero.mpr (ha.pick.ne_zero ha.inv.chan)
    · rw [radio_trace, ha.ev, radio_joinEv]; exact h2.symm
  | _ => rw [hop] at hs; cases hs

/-- C16: with no exchange pending, UWAN_ERR_CHANNEL is returned exactly when no channel is enabled. -/
theorem C16_no_channel (h : Hist E (log ++ [it]) s') (hi : exch (trace log) = .idle)
    (hop : (∃ p l c r, it.op = .send p l c r) ∨ ∃ r1 r2, it.op = .join r1 r2) :
    it.ret = .err .channel ↔ ∀ i, (config E log).on i = false := by
  obtain ⟨s, h1, -, -, -, hs⟩ := h.last
  have hp : s.phase = .idle := by
    rw [(obs_hist h1).1] at hi
    cases hq : s.phase <;> rw [hq] at hi <;> first | rfl | cases hi
  have hon : (config E log).on = chOn s.chan := by rw [← config_hist h1]; rfl
  rw [hon]
  have hoff : (∀ i, i < 16 → s.chan.mask.isSet i = false) → ∀ i, chOn s.chan i = false := by
    intro h i
    unfold chOn
    by_cases hi : i < 16
    · rw [h i hi, Bool.and_false]
    · simp [hi]
  have hpick : ∀ f, IsPick s.chan f → ¬ ∀ i, chOn s.chan i = false := by
    intro f hf h
    obtain ⟨i, -, h1, -⟩ := hf.on
    rw [h i] at h1; cases h1
  rcases hop with ⟨p, l, c, r, hop⟩ | ⟨r1, r2, hop⟩
  · rw [hop] at hs
    obtain ⟨e, hr, hc⟩ := step_send h1.inv hs
    rw [hr]
    generalize it.ev = ev at *
    cases hc with
    | state hp' => exact absurd hp hp'
    | channel _ hc => exact ⟨fun _ => hoff hc, fun _ => rfl⟩
    | len f _ hf => exact ⟨fun h => by simp at h, fun h => absurd h (hpick f hf)⟩
    | sent f d _ _ hf => exact ⟨fun h => by simp at h, fun h => absurd h (hpick f hf)⟩
  · rw [hop] at hs
    obtain ⟨e, hr, hc⟩ := step_join h1.inv hs
    rw [hr]
    generalize it.ev = ev at *
    cases hc with
    | state hp' => exact absurd hp hp'
    | channel _ hc => exact ⟨fun _ => hoff hc, fun _ => rfl⟩
    | sent f d _ _ hf => exact ⟨fun h => by simp at h, fun h => absurd h (hpick f hf)⟩

/-- A join-request on the only enabled channel, and a refused uplink with none enabled. -/
example : (∃ (log : List Item) (it : Item) (s' : St), Hist Tests.xorEnv (log ++ [it]) s' ∧ sentItem it = true ∧
      (radio (trace (log ++ [it]))).txFreq = 867900000) ∧
    ∃ (log : List Item) (it : Item) (s' : St), Hist Tests.xorEnv (log ++ [it]) s' ∧ exch (trace log) = .idle ∧
      it.op = .send 2 [9] false 7 ∧ it.ret = .err .channel := by
  constructor
  · have hf : Demo.fine [.init .ru864, .setChannel 15 867900000, .enableChannel 0 false, .enableChannel 1 false] = true := by
      decide +kernel
    obtain ⟨h1, h2⟩ := Demo.next (op := .join 3 9) hf (by decide) (by decide +kernel)
    exact ⟨_, _, _, h1, by decide +kernel, by decide +kernel⟩
  · have hf : Demo.fine [.init .ru864, .enableChannel 0 false, .enableChannel 1 false] = true := by decide +kernel
    obtain ⟨h1, h2⟩ := Demo.next (op := .send 2 [9] false 7) hf (by decide) (by decide +kernel)
    exact ⟨_, _, _, h1, by decide +kernel, h2, by decide +kernel⟩

theorem getNext_self {c : Chan} (h : ChanInv c) {i : Nat} (hi : i < 16) (hs : c.mask.isSet i = true) :
    channelsGetNext c i = .ok (c.freqAt i) := by
  have hlt := h.lt_max i hi hs
  have hm := h.max_le
  unfold channelsGetNext
  rw [if_neg (by omega)]
  have e : i % c.maxCount % 256 = i := by rw [Nat.mod_eq_of_lt hlt, Nat.mod_eq_of_lt (by omega)]
  simp only [e]
  rw [getNextLoop, if_neg (by omega), if_pos hs]

/-- C17: the random number `i` selects channel `i` if it is enabled. So each enabled channel is selected by some draw, as soon as the
payload is acceptable. -/
theorem C17_reachable (h : Hist E (log ++ [it]) s') (hs : sentItem it = true) (i : Nat) (hi : (config E log).on i = true)
    (hop : (∃ p l c, it.op = .send p l c i) ∨ ∃ r2, it.op = .join i r2) :
    (radio (trace (log ++ [it]))).txFreq = (config E log).freq i := by
  have key : ∀ s f, Hist E log s → channelsGetNext s.chan i = .ok f → (config E log).freq i = f.toNat := by
    intro s f h1 hg
    rw [← config_hist h1] at hi ⊢
    have hi' : chOn s.chan i = true := hi
    unfold chOn at hi'
    rw [Bool.and_eq_true, decide_eq_true_eq] at hi'
    rw [getNext_self h1.inv.chan hi'.1 hi'.2] at hg
    cases hg
    rfl
  unfold sentItem at hs
  rcases hop with ⟨p, l, c, hop⟩ | ⟨r2, hop⟩
  · rw [hop] at hs
    obtain ⟨s, f, d, ha⟩ := h.accepted hop (by simpa using hs)
    rw [key s f ha.hist ha.get, radio_trace, ha.ev, radio_sentEv]; rfl
  · rw [hop] at hs
    obtain ⟨s, f, d, ha⟩ := h.joinSent hop (by simpa using hs)
    rw [key s f ha.hist ha.get, radio_trace, ha.ev, radio_joinEv]; rfl

/-- C17: in every reachable state and for every random number the search ends after at most 16 probes (each step of
`getNextLoop` is one probe of the mask, its third argument the number of probes allowed). -/
theorem C17_terminates {s : St} (h : Hist E log s) (rnd : Nat) (h0 : s.chan.maxCount ≠ 0) :
    ∃ f, channelsGetNext s.chan rnd = .ok f ∧
      getNextLoop s.chan (rnd % s.chan.maxCount) 16 (rnd % s.chan.maxCount) = .ok f := by
  have hc := h.inv.chan
  have hm := hc.max_le
  have hlt : rnd % s.chan.maxCount < s.chan.maxCount := Nat.mod_lt _ (by omega)
  have e : rnd % s.chan.maxCount % 256 = rnd % s.chan.maxCount := Nat.mod_eq_of_lt (by omega)
  have mono : ∀ n st ch f, getNextLoop s.chan st n ch = .ok f → ∀ k, getNextLoop s.chan st (n + k) ch = .ok f := by
    intro n
    induction n with
    | zero => intro st ch f h; cases h
    | succ n ih =>
      intro st ch f h k
      rw [Nat.add_right_comm, getNextLoop]
      rw [getNextLoop] at h
      by_cases h1 : 16 ≤ ch
      · rw [if_pos h1] at h; cases h
      · rw [if_neg h1] at h ⊢
        by_cases h2 : s.chan.mask.isSet ch = true
        · rw [if_pos h2] at h ⊢; exact h
        · rw [if_neg h2] at h ⊢
          by_cases h3 : st ≠ (ch + 1) % s.chan.maxCount % 256
          · simp only [if_pos h3] at h ⊢; exact ih _ _ _ h k
          · simp only [if_neg h3] at h ⊢; exact h
  have h16 := getNextLoop_spec hc (rnd % s.chan.maxCount) hlt s.chan.maxCount 0 16 (by omega) (by omega) (by omega)
    (by intro j hj; omega)
  rw [Nat.add_zero, Nat.mod_eq_of_lt hlt] at h16
  unfold channelsGetNext
  rw [if_neg h0]
  simp only [e]
  rcases h16 with ⟨f, h1, -⟩ | ⟨h1, -⟩
  · exact ⟨f, mono _ _ _ _ h1 240, h1⟩
  · exact ⟨0, mono _ _ _ _ h1 240, h1⟩

/-- Three enabled channels with gaps; draw 9 selects channel 9, draw 4 finds channel 9 after six probes. -/
def gapOps : List Op := [.init .ru864, .setChannel 9 867900000, .setChannel 12 867700000, .enableChannel 1 false]

example : (∃ (log : List Item) (it : Item) (s' : St), Hist Tests.xorEnv (log ++ [it]) s' ∧ sentItem it = true ∧
      (config Tests.xorEnv log).on 9 = true ∧ it.op = .send 2 [9] false 9) ∧
    ∃ s, Hist Tests.xorEnv (Demo.items gapOps) s ∧ s.chan.maxCount = 13 ∧
      (channelsGetNext s.chan 4).toOption = some 867900000 ∧ (getNextLoop s.chan 4 5 4).toOption = none := by
  have hf : Demo.fine gapOps = true := by decide +kernel
  obtain ⟨h1, h2⟩ := Demo.next (op := .send 2 [9] false 9) hf (by decide) (by decide +kernel)
  exact ⟨⟨_, _, _, h1, by decide +kernel, by decide +kernel, h2⟩, _, Demo.hist hf, by decide +kernel, by decide +kernel,
    by decide +kernel⟩

/-! ### C18 -/

/-- C18, `uwan_set_channel`: result and effect. -/
theorem C18_set (h : Hist E (log ++ [it]) s') (i : Byte) (f : U32) (hop : it.op = .setChannel i f) :
    it.ret = .err (if 16 ≤ i.toNat then .channel else if inBand f.toNat then .no else .frequency) ∧
    (∀ j, chFreq s'.chan j = if it.ret = .err .no ∧ j = i.toNat then f.toNat else chFreq it.pre.chan j) ∧
    (∀ j, chOn s'.chan j = if it.ret = .err .no ∧ j = i.toNat then true else chOn it.pre.chan j) := by
  obtain ⟨s, h1, hpre, -, -, hs⟩ := h.last
  rw [hop] at hs
  simp only [step, Except.ok.injEq, Prod.mk.injEq] at hs
  obtain ⟨hr, rfl, -⟩ := hs
  have hret : it.ret = .err (if 16 ≤ i.toNat then .channel else if inBand f.toNat then .no else .frequency) := by
    rw [← hr]
    unfold setChannel
    rw [isValidFrequency_eq]
    by_cases h1 : 16 ≤ i.toNat <;> cases h2 : inBand f.toNat <;> simp [h1]
  have hiff : it.ret = .err .no ↔ i.toNat < 16 ∧ inBand f.toNat = true := by
    rw [hret]
    by_cases h1 : 16 ≤ i.toNat <;> cases h2 : inBand f.toNat <;> simp [h1] <;> omega
  refine ⟨hret, fun j => ?_, fun j => ?_⟩
  · show chFreq (setChannel s.chan i.toNat f).2 j = _
    rw [chFreq_setChannel, hpre]
    by_cases hc : it.ret = .err .no
    · rw [if_pos (hiff.mp hc)]; unfold upd; by_cases hj : j = i.toNat <;> simp [hj, hc]
    · rw [if_neg (fun h => hc (hiff.mpr h))]; simp [hc]
  · show chOn (setChannel s.chan i.toNat f).2 j = _
    rw [chOn_setChannel, hpre]
    by_cases hc : it.ret = .err .no
    · rw [if_pos (hiff.mp hc)]; unfold upd; by_cases hj : j = i.toNat <;> simp [hj, hc]
    · rw [if_neg (fun h => hc (hiff.mpr h))]; simp [hc]

/-- C18, `uwan_enable_channel`: result and effect. -/
theorem C18_enable (h : Hist E (log ++ [it]) s') (i : Byte) (en : Bool) (hop : it.op = .enableChannel i en) :
    (it.ret = .err .no ↔ i.toNat < 16 ∧ (en = true → chFreq it.pre.chan i.toNat ≠ 0)) ∧
    (it.ret ≠ .err .no → it.ret = .err .channel) ∧
    (∀ j, chFreq s'.chan j = chFreq it.pre.chan j) ∧
    (∀ j, chOn s'.chan j = if it.ret = .err .no ∧ j = i.toNat then en else chOn it.pre.chan j) := by
  obtain ⟨s, h1, hpre, -, -, hs⟩ := h.last
  rw [hop] at hs
  simp only [step, Except.ok.injEq, Prod.mk.injEq] at hs
  obtain ⟨hr, rfl, -⟩ := hs
  have hiff : it.ret = .err .no ↔ i.toNat < 16 ∧ (en = true → chFreq s.chan i.toNat ≠ 0) := by
    rw [← hr]
    unfold enableChannel
    by_cases h1 : 16 ≤ i.toNat
    · rw [if_pos h1]; simp; omega
    · rw [if_neg h1]
      cases en
      · simp; omega
      · by_cases h2 : s.chan.freqAt i.toNat = 0
        · simp [h2, chFreq]
        · have := toNat_ne_zero.mpr h2
          simp only [↓reduceIte, if_neg h2, chFreq, forall_const, true_iff]
          omega
  have hor : it.ret ≠ .err .no → it.ret = .err .channel := by
    rw [← hr]
    unfold enableChannel
    repeat' split
    all_goals simp
  refine ⟨by rw [hpre]; exact hiff, hor, fun j => ?_, fun j => ?_⟩
  · show chFreq (enableChannel s.chan i.toNat en).2 j = _
    rw [chFreq_enable, hpre]
  · show chOn (enableChannel s.chan i.toNat en).2 j = _
    rw [chOn_enable, hpre]
    by_cases hc : it.ret = .err .no
    · rw [if_pos (hiff.mp hc)]; unfold upd; by_cases hj : j = i.toNat <;> simp [hj, hc]
    · rw [if_neg (fun h => hc (hiff.mpr h))]; simp [hc]

/-- C18, everything else leaves the channel as it is. -/
theorem C18_untouched (h : Hist E (log ++ [it]) s') (i : Nat) (ht : touches i it = false) :
    chFreq s'.chan i = chFreq it.pre.chan i ∧ chOn s'.chan i = chOn it.pre.chan i := by
  obtain ⟨s, h1, hpre, -, -, hs⟩ := h.last
  have e1 := config_snoc (E := E) log it
  rw [← config_hist h, ← config_hist h1] at e1
  obtain ⟨n1, n2⟩ := next_chan (E := E) (view E log) (cfgOf s) it i ht
  rw [← e1] at n1 n2
  rw [hpre]
  exact ⟨n1, n2⟩

/-- C18 over histories: after a successful `uwan_set_channel`, the channel keeps this frequency and stays enabled until something
touches it. -/
theorem C18_last_set {a b : List Item} {x : Item} {s : St} (h : Hist E (a ++ [x] ++ b) s) (i : Byte) (f : U32)
    (hop : x.op = .setChannel i f) (hr : x.ret = .err .no) (hb : ∀ y ∈ b, touches i.toNat y = false) :
    chFreq s.chan i.toNat = f.toNat ∧ chOn s.chan i.toNat = true := by
  revert h hb s
  refine snoc_induction (P := fun b => ∀ {s : St}, Hist E (a ++ [x] ++ b) s → (∀ y ∈ b, touches i.toNat y = false) →
    chFreq s.chan i.toNat = f.toNat ∧ chOn s.chan i.toNat = true) ?_ ?_ b
  · intro s h _
    rw [List.append_nil] at h
    obtain ⟨-, h1, h2⟩ := C18_set h i f hop
    rw [h1, h2]
    simp [hr]
  · intro l y ih s h hb
    rw [← List.append_assoc] at h
    obtain ⟨s1, h1, hpre, -⟩ := h.last
    obtain ⟨g1, g2⟩ := C18_untouched h i.toNat (hb y (by simp))
    rw [g1, g2, hpre]
    exact ih h1 (fun z hz => hb z (by simp [hz]))

/-- C18: a channel that was disabled stays disabled until something touches it. -/
theorem C18_last_disabled {a b : List Item} {x : Item} {s : St} (h : Hist E (a ++ [x] ++ b) s) (i : Byte)
    (hop : x.op = .enableChannel i false) (hi : i.toNat < 16) (hb : ∀ y ∈ b, touches i.toNat y = false) :
    chOn s.chan i.toNat = false := by
  revert h hb s
  refine snoc_induction (P := fun b => ∀ {s : St}, Hist E (a ++ [x] ++ b) s → (∀ y ∈ b, touches i.toNat y = false) →
    chOn s.chan i.toNat = false) ?_ ?_ b
  · intro s h _
    rw [List.append_nil] at h
    obtain ⟨h0, -, -, h2⟩ := C18_enable h i false hop
    rw [h2, if_pos ⟨h0.mpr ⟨hi, fun h => by cases h⟩, rfl⟩]
  · intro l y ih s h hb
    rw [← List.append_assoc] at h
    obtain ⟨s1, h1, hpre, -⟩ := h.last
    rw [(C18_untouched h i.toNat (hb y (by simp))).2, hpre]
    exact ih h1 (fun z hz => hb z (by simp [hz]))

/-- C18: only defined channels are enabled, and defined channels are in the band. -/
theorem C18_legal {s : St} (h : Hist E log s) (i : Nat) :
    (chOn s.chan i = true → i < 16 ∧ chFreq s.chan i ≠ 0) ∧ (i < 16 → chFreq s.chan i ≠ 0 → inBand (chFreq s.chan i) = true) := by
  constructor
  · intro ho
    unfold chOn at ho
    rw [Bool.and_eq_true, decide_eq_true_eq] at ho
    exact ⟨ho.1, toNat_ne_zero.mpr (h.inv.chan.defd i ho.1 ho.2)⟩
  · intro hi hf
    have := h.inv.chan.legal i hi (toNat_ne_zero.mp hf)
    rwa [isValidFrequency_eq] at this

/-- Channel 9 is set, an exchange with a timeout takes place, other channels are changed and one is disabled. -/
example : ∃ (a b : List Item) (x : Item) (s : St), Hist Tests.xorEnv (a ++ [x] ++ b) s ∧ x.op = .setChannel 9 867900000 ∧
    x.ret = .err .no ∧ (∀ y ∈ b, touches 9 y = false) ∧ b.length = 5 := by
  have hf : Demo.fine [.init .ru864, .setChannel 9 867900000, .setChannel 12 867700000, .enableChannel 1 false,
    .setChannel 10 1, .send 2 [9] false 9, .event 4 (Tests.rxOf [])] = true := by decide +kernel
  obtain ⟨it, h1, h2, h3⟩ := Demo.cut hf 1 (by decide)
  have hr : ((Demo.items [.init .ru864, .setChannel 9 867900000, .setChannel 12 867700000, .enableChannel 1 false,
    .setChannel 10 1, .send 2 [9] false 9, .event 4 (Tests.rxOf [])])[1]?).map (·.ret) = some (.err .no) := by decide +kernel
  rw [h2] at hr
  exact ⟨_, _, it, _, by rw [← h3]; exact Demo.hist hf, h1, by simpa using hr, by decide +kernel, by decide +kernel⟩

/-! ### C19 -/

/-- The default channels of a region. -/
def regionDefaults : Region → List Nat
  | .eu868 => [868100000, 868300000, 868500000]
  | .ru864 => [868900000, 869100000]
/-- The RX2 frequency of a region, with data rate DR0. -/
def rx2Default : Region → Nat
  | .eu868 => 868100000
  | .ru864 => 869100000

/-- C19, what holds: after `uwan_init` exactly the region's default channels are enabled, with the default RX2 channel, a delay of one
second and offset 0. If no other channel was defined before, none is defined after. Missing: channels
defined before stay defined (`C19_stale`). -/
theorem C19_init_partial (h : Hist E (log ++ [it]) s') (r : Region) (hop : it.op = .init r) :
    (∀ i, chOn s'.chan i = decide (i < (regionDefaults r).length)) ∧
    (∀ i (hi : i < (regionDefaults r).length), chFreq s'.chan i = (regionDefaults r)[i]) ∧
    (∀ i, (regionDefaults r).length ≤ i → chFreq s'.chan i = chFreq it.pre.chan i) ∧
    s'.rx2Freq.toNat = rx2Default r ∧ s'.rx2Dr = 0 ∧ s'.rx1Offset.toNat = 0 ∧ s'.defaultRx1Delay.toNat = 1000 := by
  obtain ⟨s, h1, hpre, -, -, hs⟩ := h.last
  have e1 := config_snoc (E := E) log it
  rw [← config_hist h, ← config_hist h1] at e1
  have hcfg : cfgOf s' = (cfgOf s).next E (view E log) it := e1
  unfold Cfg.next at hcfg
  rw [hop] at hcfg
  rw [hpre]
  have f1 : chFreq s'.chan = (cfgOf s').freq := rfl
  have f2 : chOn s'.chan = (cfgOf s').on := rfl
  have f3 : s'.rx2Freq.toNat = (cfgOf s').rx2Freq := rfl
  have f4 : s'.rx2Dr = (cfgOf s').rx2Dr := rfl
  have f5 : s'.rx1Offset.toNat = (cfgOf s').off := rfl
  have f6 : s'.defaultRx1Delay.toNat = 1000 := by
    rw [hop] at hs
    simp only [step, Except.ok.injEq, Prod.mk.injEq] at hs
    rw [← hs.2.1]
    cases r <;> rfl
  rw [f1, f2, f3, f4, f5, f6, hcfg]
  have fs : (cfgOf s).freq = chFreq s.chan := rfl
  have pos : ∀ (c : Cfg) (i f : Nat), i < 16 → inBand f = true →
      c.setChannel i f = { c with freq := upd c.freq i f, on := upd c.on i true } := fun c i f h1 h2 => if_pos ⟨h1, h2⟩
  cases r
  · simp only [pos _ 0 868100000 (by decide) (by decide), pos _ 1 868300000 (by decide) (by decide),
      pos _ 2 868500000 (by decide) (by decide), fs]
    generalize chFreq s.chan = g
    clear hcfg pos f1 f2 f3 f4 f5 f6 fs e1
    refine ⟨fun i => ?_, fun i hi => ?_, fun i hi => ?_, rfl, trivial, trivial, trivial⟩
    · match i with
      | 0 | 1 | 2 => rfl
      | i + 3 =>
        have : ¬ i + 3 < 3 := by omega
        simp [upd, regionDefaults, this, show i + 3 ≠ 1 by omega, show i + 3 ≠ 2 by omega]
    · match i with
      | 0 | 1 | 2 => rfl
      | i + 3 => simp [regionDefaults] at hi; omega
    · match i with
      | 0 | 1 | 2 => simp [regionDefaults] at hi
      | i + 3 => simp [upd, show i + 3 ≠ 1 by omega, show i + 3 ≠ 2 by omega]
  · simp only [pos _ 0 868900000 (by decide) (by decide), pos _ 1 869100000 (by decide) (by decide), fs]
    generalize chFreq s.chan = g
    clear hcfg pos f1 f2 f3 f4 f5 f6 fs e1
    refine ⟨fun i => ?_, fun i hi => ?_, fun i hi => ?_, rfl, trivial, trivial, trivial⟩
    · match i with
      | 0 | 1 => rfl
      | i + 2 =>
        have : ¬ i + 2 < 2 := by omega
        simp [upd, regionDefaults, this, show i + 2 ≠ 1 by omega]
    · match i with
      | 0 | 1 => rfl
      | i + 2 => simp [regionDefaults] at hi; omega
    · match i with
      | 0 | 1 => simp [regionDefaults] at hi
      | i + 2 => simp [upd, show i + 2 ≠ 1 by omega]

/-- A re-initialisation after channels were changed. -/
example : ∃ (log : List Item) (it : Item) (s' : St), Hist Tests.xorEnv (log ++ [it]) s' ∧ it.op = .init .eu868 ∧
    (config Tests.xorEnv log).on 7 = true ∧ (config Tests.xorEnv log).freq 1 = 869100000 := by
  have hf : Demo.fine [.init .ru864, .setChannel 7 867900000] = true := by decide +kernel
  obtain ⟨h1, h2⟩ := Demo.next (op := .init .eu868) hf (by decide) (by decide +kernel)
  exact ⟨_, _, _, h1, h2, by decide +kernel, by decide +kernel⟩

/-- C19 does not hold of the code: a channel defined before a re-initialisation is still defined afterwards, so it can be enabled. -/
theorem C19_stale : ∃ (log : List Item) (it : Item) (s' : St), Hist Tests.xorEnv (log ++ [it]) s' ∧
    (log.map (·.op)).getLast? = some (.init .eu868) ∧ it.op = .enableChannel 7 true ∧ it.ret = .err .no ∧
    chFreq s'.chan 7 = 867900000 := by
  have hf : Demo.fine [.init .ru864, .setChannel 7 867900000, .init .eu868] = true := by decide +kernel
  obtain ⟨h1, h2⟩ := Demo.next (op := .enableChannel 7 true) hf (by decide) (by decide +kernel)
  refine ⟨_, _, _, h1, ?_, h2, by decide +kernel, by decide +kernel⟩
  rw [Demo.items_map hf]; rfl

/-! ### C42, C43 -/

/-- Five steps over different channels: each is decided by its own entry. -/
theorem cfEntry_other (c : Cfg) (i f j : Nat) (hj : j ≠ i) :
    (c.cfEntry i f).freq j = c.freq j ∧ (c.cfEntry i f).on j = c.on j := by
  unfold Cfg.cfEntry Cfg.enable Cfg.setChannel
  split <;> split <;> simp [upd, hj]

theorem cfEntry_same (c : Cfg) (i f : Nat) (hi : i < 16) :
    (c.cfEntry i f).freq i = (if f ≠ 0 ∧ inBand (100 * f) = true then 100 * f else c.freq i) ∧
    (c.cfEntry i f).on i = (if f = 0 then false else if inBand (100 * f) = true then true else c.on i) := by
  unfold Cfg.cfEntry Cfg.enable Cfg.setChannel
  by_cases hf : f = 0
  · simp [hf, hi, upd]
  · by_cases hb : inBand (100 * f) = true <;> simp [hf, hi, hb, upd]

theorem cfFold (g : Nat → Nat) (first : Nat) (hf : first ≤ 3) : ∀ (n : Nat), n ≤ 5 → ∀ c : Cfg,
    (∀ j, (∀ k, k < n → j ≠ first + k) →
      ((List.range n).foldl (fun c k => c.cfEntry (first + k) (g k)) c).freq j = c.freq j ∧
      ((List.range n).foldl (fun c k => c.cfEntry (first + k) (g k)) c).on j = c.on j) ∧
    (∀ k, k < n →
      ((List.range n).foldl (fun c k => c.cfEntry (first + k) (g k)) c).freq (first + k) =
        (if g k ≠ 0 ∧ inBand (100 * g k) = true then 100 * g k else c.freq (first + k)) ∧
      ((List.range n).foldl (fun c k => c.cfEntry (first + k) (g k)) c).on (first + k) =
        (if g k = 0 then false else if inBand (100 * g k) = true then true else c.on (first + k))) := by
  intro n
  induction n with
  | zero => intro _ c; exact ⟨fun j _ => ⟨rfl, rfl⟩, fun k hk => absurd hk (by omega)⟩
  | succ n ih =>
    intro hn c
    obtain ⟨i1, i2⟩ := ih (by omega) c
    rw [List.range_succ, List.foldl_append]
    generalize hd : List.foldl (fun c k => c.cfEntry (first + k) (g k)) c (List.range n) = d at *
    simp only [List.foldl_cons, List.foldl_nil]
    constructor
    · intro j hj
      obtain ⟨a, b⟩ := cfEntry_other d (first + n) (g n) j (hj n (by omega))
      rw [a, b]
      exact i1 j (fun k hk => hj k (by omega))
    · intro k hk
      by_cases e : k = n
      · subst e
        obtain ⟨a, b⟩ := cfEntry_same d (first + k) (g k) (by omega)
        obtain ⟨x, y⟩ := i1 (first + k) (fun l hl => by omega)
        rw [a, b, x, y]
        exact ⟨rfl, rfl⟩
      · obtain ⟨a, b⟩ := cfEntry_other d (first + n) (g n) (first + k) (by omega)
        rw [a, b]
        exact i2 k (by omega)

/-- C42 and C43: an accepted join-accept with clear text `l` (behind its first byte, MIC included) changes channels as follows. Without a
CFList, or with one of another type than 0, no channel changes. With a CFList of type 0, entry `k` decides channel `first + k`: 0
disables it, a legal frequency (in units of 100 Hz) defines and enables it, another value leaves it as it was; all other
channels, among them the default channels below `first`, stay as they were. -/
theorem C42_cflist (h : Hist E (log ++ [it]) s') (m : Byte) (o : Oracle) (hop : it.op = .event m o)
    (hj : (config E log).joining = true) (hr : report it.ev = some .no) (r : Region) (hreg : (config E log).region = some r) :
    let l := joinClear E (view E log).appKey o.rxData
    let g := fun k => leNat ((l.drop (12 + 3 * k)).take 3)
    let listed := l.length = 32 ∧ leNat ((l.drop 27).take 1) = 0
    (∀ k, k < 5 → listed →
      chFreq s'.chan ((regionDefaults r).length + k) =
        (if g k ≠ 0 ∧ inBand (100 * g k) = true then 100 * g k else chFreq it.pre.chan ((regionDefaults r).length + k)) ∧
      chOn s'.chan ((regionDefaults r).length + k) =
        (if g k = 0 then false else if inBand (100 * g k) = true then true
          else chOn it.pre.chan ((regionDefaults r).length + k))) ∧
    (∀ j, (listed → ∀ k, k < 5 → j ≠ (regionDefaults r).length + k) →
      chFreq s'.chan j = chFreq it.pre.chan j ∧ chOn s'.chan j = chOn it.pre.chan j) := by
  intro l g listed
  obtain ⟨s, h1, hpre, -, -, hs⟩ := h.last
  have e1 := config_snoc (E := E) log it
  rw [← config_hist h] at e1
  have e0 := config_hist h1
  rw [← e0] at e1 hj hreg
  rw [hpre]
  have f1 : chFreq s'.chan = (cfgOf s').freq := rfl
  have f2 : chOn s'.chan = (cfgOf s').on := rfl
  have g1 : chFreq s.chan = (cfgOf s).freq := rfl
  have g2 : chOn s.chan = (cfgOf s).on := rfl
  have hd : (regionDefaults r).length = cfFirst r := by cases r <;> rfl
  have e2 : (cfgOf s').freq = ((cfgOf s).accept l).freq ∧ (cfgOf s').on = ((cfgOf s).accept l).on := by
    rw [e1]
    unfold Cfg.next
    rw [hop]
    simp only [hr, hj, if_true]
    exact ⟨rfl, rfl⟩
  rw [f1, f2, g1, g2, e2.1, e2.2, accept_eq _ _ r hreg, hd]
  have h01 : (cfgOf s).freq = (Cfg.acc (cfgOf s) l).freq := rfl
  have h02 : (cfgOf s).on = (Cfg.acc (cfgOf s) l).on := rfl
  rw [h01, h02]
  generalize Cfg.acc (cfgOf s) l = c0
  have hg : ∀ k, leNat (((l.drop 12).drop (3 * k)).take 3) = g k := fun k => by rw [List.drop_drop]
  have hf : cfFirst r ≤ 3 := by cases r <;> decide
  obtain ⟨k1, k2⟩ := cfFold g (cfFirst r) hf 5 (Nat.le_refl _) c0
  by_cases hl : l.length = 32
  · rw [if_pos hl]
    unfold Cfg.cfList
    rw [List.drop_drop]
    by_cases ht : leNat ((l.drop 27).take 1) = 0
    · rw [if_pos ht]
      simp only [hg]
      exact ⟨fun k hk _ => k2 k hk, fun j hj => k1 j (hj ⟨hl, ht⟩)⟩
    · rw [if_neg ht]
      exact ⟨fun k _ hx => absurd hx.2 ht, fun j _ => ⟨rfl, rfl⟩⟩
  · rw [if_neg hl]
    exact ⟨fun k _ hx => absurd hx.1 hl, fun j _ => ⟨rfl, rfl⟩⟩

/-- C43: a join-accept never touches the default channels. -/
theorem C43_defaults_kept (h : Hist E (log ++ [it]) s') (m : Byte) (o : Oracle) (hop : it.op = .event m o)
    (hj : (config E log).joining = true) (hr : report it.ev = some .no) (r : Region) (hreg : (config E log).region = some r)
    (j : Nat) (hd : j < (regionDefaults r).length ∨ (regionDefaults r).length + 5 ≤ j) :
    chFreq s'.chan j = chFreq it.pre.chan j ∧ chOn s'.chan j = chOn it.pre.chan j :=
  (C42_cflist h m o hop hj hr r hreg).2 j (fun _ k hk => by omega)

/-- A join-accept with a CFList: 867.1 MHz, none, an illegal value, 867.7 MHz, none. -/
def cfListBytes : Bytes :=
  leBytes 3 8671000 ++ leBytes 3 0 ++ leBytes 3 5 ++ leBytes 3 8677000 ++ leBytes 3 0 ++ [0]
def cfAccept : Bytes := JoinAccept.build ⟨1, 2, 3, 0, 1, cfListBytes⟩ Tests.xorEnv Tests.xorEnv.aes Tests.appKey
def cfOps : List Op :=
  [.init .eu868, .setChannel 5 867300000, .setOtaaKeys Tests.devEui Tests.appEui Tests.appKey, .join 5 7,
    .event 4 (Tests.rxOf []), .timer .rx1]

-- Channel 3 is defined, channel 4 disabled, channel 5 keeps its earlier frequency.
example : ∃ log it s',
    Hist Tests.xorEnv (log ++ [it]) s' ∧ it.op = .event 2 (Tests.rxOf cfAccept) ∧
    (config Tests.xorEnv log).joining = true ∧ report it.ev = some .no ∧ (config Tests.xorEnv log).region = some .eu868 ∧
    (chFreq s'.chan 3, chOn s'.chan 3) = (867100000, true) ∧ chOn s'.chan 4 = false ∧
    (chFreq s'.chan 5, chOn s'.chan 5) = (867300000, chOn it.pre.chan 5) ∧
    (chFreq s'.chan 6, chOn s'.chan 6) = (867700000, true) := by
  obtain ⟨h, ho⟩ := Demo.next (ops := cfOps) (op := .event 2 (Tests.rxOf cfAccept)) (by decide +kernel) (by decide +kernel)
    (by decide +kernel)
  exact ⟨_, _, _, h, ho, by decide +kernel, by decide +kernel, by decide +kernel, by decide +kernel, by decide +kernel,
    by decide +kernel, by decide +kernel⟩

end Uwan
