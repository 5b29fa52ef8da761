import Verif.Lemmas.Hopping
import Verif.Tests.Demo

/-!
# Channel hopping (C133)
-/

namespace Uwan
open Spec

variable {E : Env} {log pre post : List Item} {it ini : Item} {s s' : St} {n r i : Nat} {rg : Region}

/-- The frequency of an accepted transmission, from the random number drawn. -/
theorem draw_freq (h : Hist E (log ++ [it]) s') (hs : sentItem it = true) (hr : draw it.op = some r) :
    ∃ s f, Hist E log s ∧ channelsGetNext s.chan r = .ok f ∧ f ≠ 0 ∧ (radio (trace (log ++ [it]))).txFreq = f.toNat := by
  unfold sentItem at hs
  cases hop : it.op with
  | send p l c r1 =>
    rw [hop] at hs hr
    cases hr
    obtain ⟨s, f, d, ha⟩ := h.accepted hop (by simpa using hs)
    exact ⟨s, f, ha.hist, ha.get, ha.pick.ne_zero ha.inv.chan, by rw [radio_trace, ha.ev, radio_sentEv]; rfl⟩
  | join r1 r2 =>
    rw [hop] at hs hr
    cases hr
    obtain ⟨s, f, d, ha⟩ := h.joinSent hop (by simpa using hs)
    exact ⟨s, f, ha.hist, ha.get, ha.pick.ne_zero ha.inv.chan, by rw [radio_trace, ha.ev, radio_joinEv]; rfl⟩
  | _ => rw [hop] at hs; cases hs

/-- C133, what the code does: after every history there is a number `m`, above all enabled channels and at most 16, such that a random
number `r` picks the first enabled channel at or after `r` modulo `m`. -/
theorem C133_draw (h : Hist E log s) : ∃ m, m ≤ 16 ∧ (∀ i, (config E log).on i = true → i < m) ∧
    ∀ it s' r, Hist E (log ++ [it]) s' → sentItem it = true → draw it.op = some r →
      ∃ i, nextOn (config E log).on m (r % m) = some i ∧ (radio (trace (log ++ [it]))).txFreq = (config E log).freq i := by
  have hc := h.inv.chan
  rw [← config_hist h]
  refine ⟨s.chan.maxCount, hc.max_le, ?_, ?_⟩
  · intro i hi
    have hi' : chOn s.chan i = true := hi
    unfold chOn at hi'
    rw [Bool.and_eq_true, decide_eq_true_eq] at hi'
    exact hc.lt_max i hi'.1 hi'.2
  · intro it s' r h' hs hr
    obtain ⟨s1, f, k1, k2, k3, k4⟩ := draw_freq h' hs hr
    have := Hist.unique k1 h
    subst this
    by_cases h0 : s1.chan.maxCount = 0
    · unfold channelsGetNext at k2
      rw [if_pos h0] at k2
      cases k2
      exact absurd rfl k3
    · rw [channelsGetNext_find hc r h0] at k2
      show ∃ i, nextOn (chOn s1.chan) _ _ = some i ∧ _ = chFreq s1.chan i
      cases hn : nextOn (chOn s1.chan) s1.chan.maxCount (r % s1.chan.maxCount) with
      | none => rw [hn] at k2; cases k2; exact absurd rfl k3
      | some i => rw [hn] at k2; cases k2; exact ⟨i, rfl, k4⟩

/-- C133, the part that holds: if the enabled channels are those below `n`, without gaps, and since the last initialisation there was
always an enabled channel and no packet asked to disable all of them, a random number picks the channel given by its remainder. Every
channel gets the same share, see `C133_share`. -/
theorem C133_even_partial (h : Hist E (pre ++ [ini] ++ post ++ [it]) s') (hin : ini.op = .init rg)
    (hk : ∀ it ∈ post, keepsOn it = true)
    (ha : ∀ p q, post = p ++ q → (config E (pre ++ [ini] ++ p)).audible)
    (hon : ∀ i, (config E (pre ++ [ini] ++ post)).on i = decide (i < n))
    (hs : sentItem it = true) (hr : draw it.op = some r) :
    (radio (trace (pre ++ [ini] ++ post ++ [it]))).txFreq =
      (config E (pre ++ [ini] ++ post)).freq (r % n) := by
  have hn : 0 < n := by
    obtain ⟨i, -, hi⟩ := ha post [] (by rw [List.append_nil])
    rw [hon, decide_eq_true_eq] at hi
    omega
  obtain ⟨s2, f, k1, k2, k3, k4⟩ := draw_freq h hs hr
  rw [← config_hist k1] at hon ⊢
  rw [k4]
  have hon' : ∀ i, chOn s2.chan i = decide (i < n) := hon
  obtain ⟨sm, g1, g2⟩ := k1.prefix
  obtain ⟨s0, g3, -, -, -, g4⟩ := g1.last
  have ht : Tight sm.chan := by
    rw [hin] at g4
    simp only [step, Except.ok.injEq, Prod.mk.injEq] at g4
    rw [← g4.2.1, uwanInit_eq]
    exact tight_init s0.chan rg
  have hc := k1.inv.chan
  have hm := tight_top hc (seg_tight g1 g2 ht hk ha) hn hon'
  rw [channelsGetNext_find hc r (by omega), hm, nextOn_below (Nat.mod_lt _ hn) hon'] at k2
  cases k2
  rfl

theorem share_block (a n i : Nat) (hi : i < n) : (List.range' a n).countP (fun r => r % n == i) = 1 := by
  obtain ⟨m, rfl⟩ : ∃ m, n = m + 1 := ⟨n - 1, by omega⟩
  induction a with
  | zero =>
    have h1 : (List.range' 0 (m + 1)).countP (fun r => r % (m + 1) == i) = (List.range' 0 (m + 1)).countP (· == i) := by
      refine List.countP_congr fun r hr => ?_
      rw [Nat.mod_eq_of_lt (by have := List.mem_range'_1.1 hr; omega)]
    have h2 : ∀ k, (List.range' 0 k).countP (· == i) = if i < k then 1 else 0 := by
      intro k
      induction k with
      | zero => rfl
      | succ k ih =>
        rw [List.range'_1_concat, List.countP_append, ih, List.countP_singleton]
        simp only [Nat.zero_add, beq_iff_eq]
        split <;> split <;> split <;> omega
    rw [h1, h2, if_pos hi]
  | succ a ih =>
    rw [List.range'_succ, List.countP_cons] at ih
    rw [List.range'_1_concat, List.countP_append, List.countP_singleton, show a + 1 + m = a + (m + 1) by omega, Nat.add_mod_right]
    exact ih

/-- C133: among any `k * n` consecutive numbers every remainder occurs `k` times. -/
theorem C133_share (a k n i : Nat) (hi : i < n) : (List.range' a (k * n)).countP (fun r => r % n == i) = k := by
  induction k generalizing a with
  | zero => simp
  | succ k ih =>
    rw [Nat.succ_mul, ← List.range'_append_1, List.countP_append, ih, share_block _ n i hi]

/-- A session on the three default channels of EU868, plus two defined by the application; a message was sent, and in its first window
came a LinkADRReq that leaves four of the five. -/
def fourOps : List Op :=
  [.setSession 0x01020304 0 0 Tests.appKey Tests.appKey, .setChannel 3 867100000, .setChannel 4 867300000, .send 2 [1] false 4,
    .event 4 (Tests.rxOf []), .timer .rx1,
    .event 2 (Tests.rxOf [0x60, 4, 3, 2, 1, 5, 1, 0, 3, 0x50, 0x0f, 0, 0, 0, 0, 0, 0])]

theorem on_fin {c : Chan} {n : Nat} (hn : n ≤ 16) (h : ∀ i : Fin 16, chOn c i = decide (i.val < n)) (i : Nat) :
    chOn c i = decide (i < n) := by
  by_cases hi : i < 16
  · exact h ⟨i, hi⟩
  · unfold chOn
    simp [hi]
    omega

theorem fourFine : Demo.fine ([] ++ [.init .eu868] ++ fourOps ++ [.send 2 [7] false 7]) = true := by decide +kernel

-- Four channels; random number 7 picks the last of them.
example : ∃ (pre post : List Item) (ini it : Item) (s' : St), Hist Tests.xorEnv (pre ++ [ini] ++ post ++ [it]) s' ∧
    ini.op = .init .eu868 ∧ (∀ it ∈ post, keepsOn it = true) ∧
    (∀ p q, post = p ++ q → (config Tests.xorEnv (pre ++ [ini] ++ p)).audible) ∧
    (∀ i, (config Tests.xorEnv (pre ++ [ini] ++ post)).on i = decide (i < 4)) ∧ sentItem it = true ∧ draw it.op = some 7 ∧
    (radio (trace (pre ++ [ini] ++ post ++ [it]))).txFreq = 867100000 := by
  refine ⟨_, _, _, _, _, Demo.two fourFine, Demo.nextItem_op _ _, ?_, ?_, ?_, by decide +kernel, by rw [Demo.nextItem_op]; rfl,
    by decide +kernel⟩
  · have : ((Demo.items ([] ++ [.init .eu868] ++ fourOps)).drop 1).all keepsOn = true := by decide +kernel
    exact List.all_eq_true.mp this
  · intro p q e
    have hl : ((Demo.items ([] ++ [.init .eu868] ++ fourOps)).drop 1).length = 7 := by decide +kernel
    have hp : p = ((Demo.items ([] ++ [.init .eu868] ++ fourOps)).drop 1).take p.length := by
      have := congrArg (List.take p.length) e
      rw [List.take_left] at this
      exact this.symm
    have hk : ∀ k : Fin 8, (config Tests.xorEnv (Demo.items [] ++ [Demo.nextItem [] (.init .eu868)] ++
        ((Demo.items ([] ++ [.init .eu868] ++ fourOps)).drop 1).take k)).on 0 = true := by decide +kernel
    have hlen : p.length < 8 := by
      have := congrArg List.length e
      rw [List.length_append] at this
      have h2 : (List.drop (([] : List Op).length + 1) (Demo.items ([] ++ [.init .eu868] ++ fourOps))).length = 7 := hl
      omega
    rw [hp]
    exact ⟨0, by decide, hk ⟨p.length, hlen⟩⟩
  · obtain ⟨s2, h2, -⟩ := Demo.two fourFine |>.last
    intro i
    have h3 : ∀ i : Fin 16, (config Tests.xorEnv (Demo.items [] ++ [Demo.nextItem [] (.init .eu868)] ++
        (Demo.items ([] ++ [.init .eu868] ++ fourOps)).drop (([] : List Op).length + 1))).on i = decide (i.val < 4) := by decide +kernel
    have e : chOn s2.chan = (config Tests.xorEnv (Demo.items [] ++ [Demo.nextItem [] (.init .eu868)] ++
        (Demo.items ([] ++ [.init .eu868] ++ fourOps)).drop (([] : List Op).length + 1))).on := congrArg Cfg.on (config_hist h2)
    have := on_fin (c := s2.chan) (n := 4) (by decide) (by rw [e]; exact h3) i
    rw [e] at this
    exact this

/-- Channel 1 of the three default channels is disabled. -/
def unevenOps : List Op := [.init .eu868, .setSession 0x01020304 0 0 Tests.appKey Tests.appKey, .enableChannel 1 false]

theorem unevenFine : Demo.fine unevenOps = true := by decide +kernel

theorem nextOn_three (r : Nat) (hr : r < 3) : nextOn (chOn (Demo.final unevenOps).chan) 3 r = some (if r = 0 then 0 else 2) := by
  match r, hr with
  | 0, _ => decide +kernel
  | 1, _ => decide +kernel
  | 2, _ => decide +kernel

/-- C133 does not hold of the code: with channel 1 of three disabled, a random number picks channel 0 one time in three and channel 2
two times in three. -/
theorem C133_uneven : ∃ (log : List Item) (s : St), Hist Tests.xorEnv log s ∧
    (∀ i, (config Tests.xorEnv log).on i = decide (i = 0 ∨ i = 2)) ∧
    (∀ r < 3, ∃ it s', Hist Tests.xorEnv (log ++ [it]) s' ∧ sentItem it = true ∧ draw it.op = some r) ∧
    ∀ it s' r, Hist Tests.xorEnv (log ++ [it]) s' → sentItem it = true → draw it.op = some r →
      (radio (trace (log ++ [it]))).txFreq = (config Tests.xorEnv log).freq (if r % 3 = 0 then 0 else 2) := by
  have h := Demo.hist unevenFine
  have hm : (Demo.final unevenOps).chan.maxCount = 3 := by decide +kernel
  refine ⟨_, _, h, ?_, ?_, ?_⟩
  · rw [← config_hist h]
    intro i
    show chOn _ i = _
    by_cases hi : i < 16
    · have : ∀ i : Fin 16, chOn (Demo.final unevenOps).chan i = decide (i.val = 0 ∨ i.val = 2) := by decide +kernel
      exact this ⟨i, hi⟩
    · unfold chOn
      simp [hi]
      omega
  · have key : ∀ r : Fin 3, (match step Tests.xorEnv (Demo.final unevenOps) (.send 2 [1] false r) with | .ok _ => true | .error _ => false) = true ∧
        sentItem (Demo.nextItem unevenOps (.send 2 [1] false r)) = true := by decide +kernel
    intro r hr
    obtain ⟨k1, k2⟩ := key ⟨r, hr⟩
    obtain ⟨h1, h2⟩ := Demo.next unevenFine (op := .send 2 [1] false r) (by show _ ≤ _; decide) k1
    exact ⟨_, _, h1, k2, by rw [h2]; rfl⟩
  · intro it s' r h' hs hr
    obtain ⟨s1, f, k1, k2, k3, k4⟩ := draw_freq h' hs hr
    have e := Hist.unique k1 h
    subst e
    rw [channelsGetNext_find k1.inv.chan r (by omega), hm, nextOn_three _ (Nat.mod_lt _ (by decide))] at k2
    cases k2
    rw [k4, ← config_hist k1]
    rfl

/-- All three channels are disabled in turn, and the first two enabled again. -/
def markOps : List Op :=
  [.init .eu868, .setSession 0x01020304 0 0 Tests.appKey Tests.appKey, .enableChannel 0 false, .enableChannel 1 false,
    .enableChannel 2 false, .enableChannel 0 true, .enableChannel 1 true]

theorem markFine : Demo.fine markOps = true := by decide +kernel

theorem nextOn_mark (r : Nat) (hr : r < 3) : nextOn (chOn (Demo.final markOps).chan) 3 r = some (if r = 1 then 1 else 0) := by
  match r, hr with
  | 0, _ => decide +kernel
  | 1, _ => decide +kernel
  | 2, _ => decide +kernel

/-- C133 does not hold of the code either when the enabled channels have no gap, if all were disabled before: of two channels the first
is picked two times in three. -/
theorem C133_stale : ∃ (log : List Item) (s : St), Hist Tests.xorEnv log s ∧
    (∀ i, (config Tests.xorEnv log).on i = decide (i < 2)) ∧
    (∀ r < 3, ∃ it s', Hist Tests.xorEnv (log ++ [it]) s' ∧ sentItem it = true ∧ draw it.op = some r) ∧
    ∀ it s' r, Hist Tests.xorEnv (log ++ [it]) s' → sentItem it = true → draw it.op = some r →
      (radio (trace (log ++ [it]))).txFreq = (config Tests.xorEnv log).freq (if r % 3 = 1 then 1 else 0) := by
  have h := Demo.hist markFine
  have hm : (Demo.final markOps).chan.maxCount = 3 := by decide +kernel
  refine ⟨_, _, h, ?_, ?_, ?_⟩
  · rw [← config_hist h]
    exact on_fin (by decide) (by decide +kernel)
  · have key : ∀ r : Fin 3, (match step Tests.xorEnv (Demo.final markOps) (.send 2 [1] false r) with | .ok _ => true | .error _ => false) = true ∧
        sentItem (Demo.nextItem markOps (.send 2 [1] false r)) = true := by decide +kernel
    intro r hr
    obtain ⟨k1, k2⟩ := key ⟨r, hr⟩
    obtain ⟨h1, h2⟩ := Demo.next markFine (op := .send 2 [1] false r) (by show _ ≤ _; decide) k1
    exact ⟨_, _, h1, k2, by rw [h2]; rfl⟩
  · intro it s' r h' hs hr
    obtain ⟨s1, f, k1, k2, k3, k4⟩ := draw_freq h' hs hr
    have e := Hist.unique k1 h
    subst e
    rw [channelsGetNext_find k1.inv.chan r (by omega), hm, nextOn_mark _ (Nat.mod_lt _ (by decide))] at k2
    cases k2
    rw [k4, ← config_hist k1]
    rfl

end Uwan
