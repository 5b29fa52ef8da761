import Verif.Lemmas.ClockSync
import Verif.Lemmas.Hist

/-! # Histories of the stack with the clock synchronisation package -/

namespace Uwan
open Spec

theorem bind_ok {α β : Type} {x : Except UB α} {f : α → Except UB β} {b : β} (h : x.bind f = .ok b) : ∃ a, x = .ok a ∧ f a = .ok b := by
  cases x with
  | error v => cases h
  | ok a => exact ⟨a, rfl, h⟩

/-- Undefined shifts only come with negative corrections. -/
theorem csL_shift {cb : CsCbs} {unix : U32} {tail : Bytes} (seen : List Nat) (data : Bytes) : ∀ (c : Cs) (out : Bytes) (c' : Cs) (out' : Bytes) (ev : List CsEv),
    csL cb unix tail seen data c out = .ok (c', out', ev) → .ubShift ∈ ev → ∃ v t, .timeAns v t ∈ readSync seen data ∧ v < 0 := by
  have put : ∀ {x : SyncCmd} {l : List SyncCmd}, (∃ v t, .timeAns v t ∈ l ∧ v < 0) → ∃ v t, .timeAns v t ∈ x :: l ∧ v < 0 := by
    rintro x l ⟨v, t, h, hv⟩
    exact ⟨v, t, List.mem_cons_of_mem _ h, hv⟩
  induction seen, data using readSync.induct with
  | case1 seen => intro c out c' out' ev h hm; simp only [csL, Except.ok.injEq, Prod.mk.injEq] at h; rw [← h.2.2] at hm; cases hm
  | case2 seen cid rest hs =>
    intro c out c' out' ev h hm
    unfold csL at h
    rw [if_pos hs] at h
    simp only [Except.ok.injEq, Prod.mk.injEq] at h
    rw [← h.2.2] at hm; cases hm
  | case3 seen cid rest hs h0 ih =>
    intro c out c' out' ev h hm
    unfold readSync
    rw [if_neg hs, if_pos h0]
    unfold csL at h
    rw [if_neg hs, if_neg (by omega), if_pos h0] at h
    obtain ⟨o, -, h⟩ := bind_ok h
    exact put (ih _ _ _ _ _ h hm)
  | case4 seen cid hs h0 h1 a b d e t rest ih =>
    intro c out c' out' ev h hm
    unfold readSync
    rw [if_neg hs, if_neg h0, if_pos h1]
    unfold csL at h
    rw [if_neg hs, if_neg (by omega), if_neg h0, if_pos h1] at h
    have hneg : 128 ≤ e.toNat → signed32 (leNat [a, b, d, e]) < 0 := by
      intro he
      have h1 := a.isLt; have h2 := b.isLt; have h3 := d.isLt; have h4 := e.isLt
      have hN : leNat [a, b, d, e] = a.toNat + 256 * (b.toNat + 256 * (d.toNat + 256 * (e.toNat + 256 * 0))) := rfl
      generalize leNat [a, b, d, e] = N at hN
      unfold signed32
      rw [if_neg (by omega)]
      omega
    have hmk : ∀ {l : List CsEv}, CsEv.ubShift ∈ (if 128 ≤ e.toNat then [CsEv.ubShift] else []) ++ l → 128 ≤ e.toNat ∨ CsEv.ubShift ∈ l := by
      intro l hl
      split at hl
      · next he => exact .inl he
      · exact .inr (by simpa using hl)
    simp only [] at h
    split at h <;> obtain ⟨⟨c1, o1, e1⟩, hr, h⟩ := bind_ok h <;> simp only [Except.ok.injEq, Prod.mk.injEq] at h <;> rw [← h.2.2] at hm
    · rw [List.append_assoc] at hm
      rcases hmk hm with he | hm
      · exact ⟨_, _, List.mem_cons_self, hneg he⟩
      · exact put (ih _ _ _ _ _ hr (by simpa using hm))
    · rcases hmk hm with he | hm
      · exact ⟨_, _, List.mem_cons_self, hneg he⟩
      · exact put (ih _ _ _ _ _ hr hm)
  | case5 seen cid hs h0 h1 rest hx ih =>
    intro c out c' out' ev h hm
    unfold readSync
    rw [if_neg hs, if_neg h0, if_pos h1]
    unfold csL at h
    rw [if_neg hs, if_neg (by omega), if_neg h0, if_pos h1] at h
    split at h
    · exact (hx _ _ _ _ _ _ rfl).elim
    · have := ih _ _ _ _ _ h hm
      split
      · exact (hx _ _ _ _ _ _ rfl).elim
      · exact put this
  | case6 seen cid hs h0 h1 h2 p rest ih =>
    intro c out c' out' ev h hm
    unfold readSync
    rw [if_neg hs, if_neg h0, if_neg h1, if_pos h2]
    unfold csL at h
    rw [if_neg hs, if_neg (by omega), if_neg h0, if_neg h1, if_pos h2] at h
    obtain ⟨⟨st, e0⟩, hp, h⟩ := bind_ok h
    obtain ⟨o, -, h⟩ := bind_ok h
    obtain ⟨⟨c1, o1, e1⟩, hr, h⟩ := bind_ok h
    simp only [Except.ok.injEq, Prod.mk.injEq] at h
    rw [← h.2.2] at hm
    refine put (ih _ _ _ _ _ hr ?_)
    have he0 : CsEv.ubShift ∉ e0 := by
      unfold csPeriod at hp
      split at hp
      · cases hq : periodOf p with
        | error u => rw [hq] at hp; cases hp
        | ok sec => rw [hq] at hp; simp only [Except.map, Except.ok.injEq, Prod.mk.injEq] at hp; rw [← hp.2]; simp
      · simp only [Except.ok.injEq, Prod.mk.injEq] at hp; rw [← hp.2]; simp
    simpa [he0] using hm
  | case7 seen cid hs h0 h1 h2 =>
    intro c out c' out' ev h hm
    unfold csL at h
    rw [if_neg hs, if_neg (by omega), if_neg h0, if_neg h1, if_pos h2] at h
    simp only [Except.ok.injEq, Prod.mk.injEq] at h
    rw [← h.2.2] at hm; cases hm
  | case8 seen cid hs h0 h1 h2 h3 b rest ih =>
    intro c out c' out' ev h hm
    unfold readSync
    rw [if_neg hs, if_neg h0, if_neg h1, if_neg h2, if_pos h3]
    unfold csL at h
    rw [if_neg hs, if_neg (by omega), if_neg h0, if_neg h1, if_neg h2, if_pos h3] at h
    obtain ⟨⟨c1, o1, e1⟩, hr, h⟩ := bind_ok h
    simp only [Except.ok.injEq, Prod.mk.injEq] at h
    rw [← h.2.2] at hm
    refine put (ih _ _ _ _ _ hr ?_)
    rcases List.mem_append.mp hm with hm | hm
    · split at hm <;> simp at hm
    · exact hm
  | case9 seen cid hs h0 h1 h2 h3 =>
    intro c out c' out' ev h hm
    unfold csL at h
    rw [if_neg hs, if_neg (by omega), if_neg h0, if_neg h1, if_neg h2, if_pos h3] at h
    simp only [] at h
    cases tail with
    | nil => cases h
    | cons b tl =>
      simp only [Except.ok.injEq, Prod.mk.injEq] at h
      rw [← h.2.2] at hm
      split at hm <;> simp at hm
  | case10 seen cid rest hs h0 h1 h2 h3 h8 ih =>
    intro c out c' out' ev h hm
    unfold readSync
    rw [if_neg hs, if_neg h0, if_neg h1, if_neg h2, if_neg h3, if_pos h8]
    unfold csL at h
    rw [if_neg hs, if_neg (by omega), if_neg h0, if_neg h1, if_neg h2, if_neg h3, if_pos h8] at h
    exact put (ih _ _ _ _ _ h hm)
  | case11 seen cid rest hs h0 h1 h2 h3 h8 h31 ih =>
    intro c out c' out' ev h hm
    unfold readSync
    rw [if_neg hs, if_neg h0, if_neg h1, if_neg h2, if_neg h3, if_neg h8, if_pos h31]
    unfold csL at h
    rw [if_neg hs, if_neg (by omega), if_neg h0, if_neg h1, if_neg h2, if_neg h3, if_neg h8] at h
    exact put (ih _ _ _ _ _ h hm)
  | case12 seen cid rest hs h0 h1 h2 h3 h8 h31 =>
    intro c out c' out' ev h hm
    unfold csL at h
    rw [if_neg hs, if_pos (by omega)] at h
    cases h

/-- A repeated identifier ends the packet. -/
theorem csL_repeat {cb : CsCbs} {unix : U32} {tail tail' rest : Bytes} {cid : Byte} : ∀ (msgs : List SyncMsg) (seen : List Nat) (c : Cs) (out : Bytes),
    (seen.contains cid.toNat = true ∨ cid ∈ msgs.map SyncMsg.cid) →
    csL cb unix tail seen (msgs.flatMap SyncMsg.bytes ++ cid :: rest) c out = csL cb unix tail' seen (msgs.flatMap SyncMsg.bytes) c out := by
  intro msgs
  induction msgs with
  | nil =>
    intro seen c out h
    rcases h with h | h
    · show csL cb unix tail seen (cid :: rest) c out = .ok (c, out, [])
      unfold csL
      rw [if_pos h]
    · cases h
  | cons m msgs ih =>
    intro seen c out h
    have hk : ∀ k : Nat, m.cid.toNat = k → (k :: seen).contains cid.toNat = true ∨ cid ∈ msgs.map SyncMsg.cid := by
      intro k hk
      rcases h with h | h
      · left; rw [List.contains_cons, h, Bool.or_true]
      · rcases List.mem_cons.mp h with h | h
        · left; rw [h, hk, List.contains_cons]; simp
        · exact .inr h
    rw [List.flatMap_cons, List.append_assoc]
    cases m with
    | version =>
      show csL cb unix tail seen (0 :: (msgs.flatMap SyncMsg.bytes ++ cid :: rest)) c out = csL cb unix tail' seen (0 :: msgs.flatMap SyncMsg.bytes) c out
      unfold csL
      have := ih (0 :: seen)
      simp only [fun c o => this c o (hk 0 rfl), if_pos (show (0 : Byte).toNat = 0 by rfl)]
    | timeAns a b d e t =>
      show csL cb unix tail seen (1 :: a :: b :: d :: e :: t :: (msgs.flatMap SyncMsg.bytes ++ cid :: rest)) c out =
        csL cb unix tail' seen (1 :: a :: b :: d :: e :: t :: msgs.flatMap SyncMsg.bytes) c out
      unfold csL
      have := ih (1 :: seen)
      simp only [fun c o => this c o (hk 1 rfl), if_neg (show ¬ (1 : Byte).toNat = 0 by decide), if_pos (show (1 : Byte).toNat = 1 by rfl)]
    | period p =>
      show csL cb unix tail seen (2 :: p :: (msgs.flatMap SyncMsg.bytes ++ cid :: rest)) c out = csL cb unix tail' seen (2 :: p :: msgs.flatMap SyncMsg.bytes) c out
      unfold csL
      have := ih (2 :: seen)
      simp only [fun c o => this c o (hk 2 rfl), if_neg (show ¬ (2 : Byte).toNat = 0 by decide), if_neg (show ¬ (2 : Byte).toNat = 1 by decide), if_pos (show (2 : Byte).toNat = 2 by rfl)]
    | resync n =>
      show csL cb unix tail seen (3 :: n :: (msgs.flatMap SyncMsg.bytes ++ cid :: rest)) c out = csL cb unix tail' seen (3 :: n :: msgs.flatMap SyncMsg.bytes) c out
      unfold csL
      have := ih (3 :: seen)
      simp only [fun c o => this c o (hk 3 rfl), if_neg (show ¬ (3 : Byte).toNat = 0 by decide), if_neg (show ¬ (3 : Byte).toNat = 1 by decide), if_neg (show ¬ (3 : Byte).toNat = 2 by decide), if_pos (show (3 : Byte).toNat = 3 by rfl)]

/-- `csHandle` over lists. -/
theorem csHandle_eq {c : Cs} {port : Byte} {data tail : Bytes} {unix : U32} (hl : data.length ≤ 255) :
    csHandle c .no port (data ++ tail) (BitVec.ofNat 8 data.length) unix =
    match c.cbs with
    | none => .ok ({ c with reqPending := false, ansPending := false }, [])
    | some cb =>
      if data ≠ [] ∧ port = 202 then
        (csL cb unix tail [] data { c with reqPending := false, ansPending := false } []).bind fun x =>
          .ok ({ x.1 with ans := x.2.1, ansPending := !x.2.1.isEmpty }, x.2.2)
      else .ok ({ c with reqPending := false, ansPending := false }, []) := by
  have hz : BitVec.ofNat 8 data.length ≠ 0 ↔ data ≠ [] := by
    refine not_congr ?_
    rw [← List.length_eq_zero_iff, ← BitVec.toNat_inj, BitVec.toNat_ofNat, Nat.mod_eq_of_lt (by omega)]
    rfl
  unfold csHandle
  rw [if_neg (by simp)]
  simp only [hz]
  cases hc : c.cbs with
  | none =>
    split
    · unfold handleAnsw; simp only
    · rfl
  | some cb =>
    simp only
    split
    · unfold handleAnsw
      simp only
      rw [csLoop_eq hl 512 0 0 [] _ [] (by omega) (by intro k; simp) (.inl ⟨rfl, fun j hj => by omega⟩) (by simp; omega)]
      rfl
    · rfl

/-- The parser sends nothing, and it ends. -/
def CsQuiet {α : Type} : Except UB (α × List CsEv) → Prop
  | .ok x => ∀ port pld conf, .sendFrame port pld conf ∉ x.2
  | .error u => u ≠ .diverge

theorem quiet_app {ev : List CsEv} (he : ∀ port pld conf, CsEv.sendFrame port pld conf ∉ ev) {x : Except UB (Cs × Bytes × List CsEv)}
    (hx : CsQuiet (x.map fun y => ((y.1, y.2.1), y.2.2))) : CsQuiet ((x.bind fun y => .ok (y.1, y.2.1, ev ++ y.2.2) : Except UB (Cs × Bytes × List CsEv)).map fun y => ((y.1, y.2.1), y.2.2)) := by
  cases x with
  | error u => exact hx
  | ok y =>
    intro port pld conf hm
    rcases List.mem_append.mp hm with hm | hm
    · exact he _ _ _ hm
    · exact hx _ _ _ hm

theorem push_quiet {out l : Bytes} {f : Bytes → Except UB (Cs × Bytes × List CsEv)} (h : ∀ o, CsQuiet ((f o).map fun y => ((y.1, y.2.1), y.2.2))) :
    CsQuiet (((csPush out l).bind f).map fun y => ((y.1, y.2.1), y.2.2)) := by
  unfold csPush
  split
  · exact h _
  · show UB.oob ≠ .diverge
    simp

theorem period_quiet (cb : CsCbs) (p : Byte) : CsQuiet (csPeriod cb p) := by
  unfold csPeriod
  split
  · by_cases h : p.toNat ≤ 5
    · rw [periodOf_small h]
      intro a b c hm
      simp at hm
    · rw [periodOf_big (by omega)]
      show UB.arith ≠ .diverge
      simp
  · intro a b c hm
    simp at hm

theorem csL_quiet {cb : CsCbs} {unix : U32} {tail : Bytes} (seen : List Nat) (data : Bytes) : ∀ (c : Cs) (out : Bytes),
    CsQuiet ((csL cb unix tail seen data c out).map fun y => ((y.1, y.2.1), y.2.2)) := by
  have qn : ∀ {c : Cs} {out : Bytes}, CsQuiet ((.ok (c, out, []) : Except UB (Cs × Bytes × List CsEv)).map fun y => ((y.1, y.2.1), y.2.2)) := by
    intro c out _ _ _ hm; cases hm
  have q1 : ∀ {c : Prop} [Decidable c] {x : CsEv}, (∀ p q r, x ≠ .sendFrame p q r) → ∀ p q r, .sendFrame p q r ∉ (if c then [x] else []) := by
    intro c _ x hx p q r hm
    split at hm
    · exact hx p q r (List.mem_singleton.mp hm).symm
    · cases hm
  induction seen, data using readSync.induct with
  | case1 seen => intro c out; exact qn
  | case2 seen cid rest hs =>
    intro c out
    unfold csL
    rw [if_pos hs]
    exact qn
  | case3 seen cid rest hs h0 ih =>
    intro c out
    unfold csL
    rw [if_neg hs, if_neg (by omega), if_pos h0]
    exact push_quiet fun o => ih c o
  | case4 seen cid hs h0 h1 a b d e t rest ih =>
    intro c out
    unfold csL
    rw [if_neg hs, if_neg (by omega), if_neg h0, if_pos h1]
    simp only []
    have hmk : ∀ p q r, CsEv.sendFrame p q r ∉ (if 128 ≤ e.toNat then [CsEv.ubShift] else []) := q1 (by simp)
    split
    · refine quiet_app (ev := (if 128 ≤ e.toNat then [CsEv.ubShift] else []) ++ [.correction (or32 a b d e)]) ?_ (ih _ _)
      intro p q r hm
      rcases List.mem_append.mp hm with hm | hm
      · exact hmk _ _ _ hm
      · simp at hm
    · exact quiet_app hmk (ih _ _)
  | case5 seen cid hs h0 h1 rest hx ih =>
    intro c out
    unfold csL
    rw [if_neg hs, if_neg (by omega), if_neg h0, if_pos h1]
    split
    · exact (hx _ _ _ _ _ _ rfl).elim
    · exact ih _ _
  | case6 seen cid hs h0 h1 h2 p rest ih =>
    intro c out
    unfold csL
    rw [if_neg hs, if_neg (by omega), if_neg h0, if_neg h1, if_pos h2]
    have hp := period_quiet cb p
    show CsQuiet (((csPeriod cb p).bind fun x => (csPush out ([0x2, x.1] ++ gpsBytes unix)).bind fun o =>
      (csL cb unix tail (2 :: seen) rest c o).bind fun y => .ok (y.1, y.2.1, x.2 ++ [.getTime] ++ y.2.2)).map _)
    cases hq : csPeriod cb p with
    | error u => rw [hq] at hp; exact hp
    | ok x =>
      rw [hq] at hp
      refine push_quiet fun o => quiet_app (ev := x.2 ++ [.getTime]) ?_ (ih _ _)
      intro p q r hm
      rcases List.mem_append.mp hm with hm | hm
      · exact hp _ _ _ hm
      · simp at hm
  | case7 seen cid hs h0 h1 h2 =>
    intro c out
    unfold csL
    rw [if_neg hs, if_neg (by omega), if_neg h0, if_neg h1, if_pos h2]
    exact qn
  | case8 seen cid hs h0 h1 h2 h3 b rest ih =>
    intro c out
    unfold csL
    rw [if_neg hs, if_neg (by omega), if_neg h0, if_neg h1, if_neg h2, if_pos h3]
    exact quiet_app (q1 (by simp)) (ih _ _)
  | case9 seen cid hs h0 h1 h2 h3 =>
    intro c out
    unfold csL
    rw [if_neg hs, if_neg (by omega), if_neg h0, if_neg h1, if_neg h2, if_pos h3]
    cases tail with
    | nil => show UB.oob ≠ .diverge; simp
    | cons b tl =>
      intro p q r hm
      exact q1 (by simp) p q r hm
  | case10 seen cid rest hs h0 h1 h2 h3 h8 ih =>
    intro c out
    unfold csL
    rw [if_neg hs, if_neg (by omega), if_neg h0, if_neg h1, if_neg h2, if_neg h3, if_pos h8]
    exact ih _ _
  | case11 seen cid rest hs h0 h1 h2 h3 h8 h31 ih =>
    intro c out
    unfold csL
    rw [if_neg hs, if_neg (by omega), if_neg h0, if_neg h1, if_neg h2, if_neg h3, if_neg h8]
    exact ih _ _
  | case12 seen cid rest hs h0 h1 h2 h3 h8 h31 =>
    intro c out
    unfold csL
    rw [if_neg hs, if_pos (by omega)]
    show UB.arith ≠ .diverge
    simp

theorem csHandle_quiet {c : Cs} {err : Err} {port : Byte} {data tail : Bytes} {unix : U32} (hl : data.length ≤ 255) :
    CsQuiet (csHandle c err port (data ++ tail) (BitVec.ofNat 8 data.length) unix) := by
  by_cases he : err = .no
  · subst he
    rw [csHandle_eq hl]
    split
    · intro _ _ _ hm; cases hm
    · next cb hcb =>
      split
      · have := csL_quiet (cb := cb) (unix := unix) (tail := tail) [] data { c with reqPending := false, ansPending := false } []
        cases hq : csL cb unix tail [] data { c with reqPending := false, ansPending := false } [] with
        | error u => rw [hq] at this; exact this
        | ok y => rw [hq] at this; exact this
      · intro _ _ _ hm; cases hm
  · unfold csHandle
    rw [if_pos he]
    intro _ _ _ hm; cases hm

theorem callsOf_cs (ev : List CsEv) : callsOf (ev.map .cs) = ev.filterMap callOf := by
  unfold callsOf
  rw [List.filterMap_map]; rfl

theorem callsOf_st (ev : List Ev) : callsOf (ev.map .st) = [] := by
  unfold callsOf
  rw [List.filterMap_map]
  induction ev with
  | nil => rfl
  | cons e l ih => exact ih

/-- The commands a downlink leads to. -/
def found (cbs : Option CsCbs) (port : Byte) (data : Bytes) : List SyncCmd :=
  match cbs with
  | some _ => if port = 202 then readSync [] data else []
  | none => []

theorem csHandle_res {c c' : Cs} {port : Byte} {data tail : Bytes} {unix : U32} {ev : List CsEv} (hl : data.length ≤ 255) (ht : c.token.toNat < 16)
    (ha : c.ans.length ≤ 9) (h : csHandle c .no port (data ++ tail) (BitVec.ofNat 8 data.length) unix = .ok (c', ev)) :
    ∃ cb : CsCbs, (c.cbs = none ∨ c.cbs = some cb) ∧ ∃ out, CsRes cb unix c.token.toNat (found c.cbs port data) c [] c' out ev ∧
      c'.ansPending = !out.isEmpty ∧ (c'.ansPending = true → c'.ans = out) ∧ c'.ans.length ≤ 9 ∧
      (CsEv.ubShift ∈ ev → ∃ v t, .timeAns v t ∈ found c.cbs port data ∧ v < 0) := by
  rw [csHandle_eq hl] at h
  have hnone : ∀ (cb : CsCbs) (c'' : Cs), c''.token = c.token → c''.cbs = c.cbs → CsRes cb unix c.token.toNat [] c [] c'' [] [] :=
    fun cb c'' h1 h2 => ⟨rfl, rfl, ⟨[], rfl, .inl rfl⟩, by rw [h1]; simp [corrections]; omega, h2⟩
  cases hc : c.cbs with
  | none =>
    rw [hc] at h
    simp only [Except.ok.injEq, Prod.mk.injEq] at h
    obtain ⟨rfl, rfl⟩ := h
    exact ⟨⟨false⟩, .inl rfl, [], hnone _ _ rfl (by rw [hc]), rfl, by simp, ha, by simp⟩
  | some cb =>
    rw [hc] at h
    simp only at h
    refine ⟨cb, .inr rfl, ?_⟩
    by_cases hp : data ≠ [] ∧ port = 202
    · rw [if_pos hp] at h
      obtain ⟨⟨c1, o1, e1⟩, hr, h⟩ := bind_ok h
      simp only [Except.ok.injEq, Prod.mk.injEq] at h
      obtain ⟨rfl, rfl⟩ := h
      have hR := csL_ok (tok := c.token.toNat) [] data _ _ _ _ _ hr (fun _ => rfl) ht
      have hf : found (some cb) port data = readSync [] data := by unfold found; simp only; rw [if_pos hp.2]
      rw [hf]
      have hout := hR.out
      rw [List.nil_append] at hout
      refine ⟨o1, ⟨hR.out, hR.corr, hR.calls, hR.token, ?_⟩, rfl, fun _ => rfl, ?_, csL_shift _ _ _ _ _ _ _ hr⟩
      · rw [hc]; exact hR.cbs
      · show o1.length ≤ 9
        rw [hout]; exact answers_le _ _ _
    · rw [if_neg hp] at h
      simp only [Except.ok.injEq, Prod.mk.injEq] at h
      obtain ⟨rfl, rfl⟩ := h
      have hf : found (some cb) port data = [] := by
        unfold found; simp only
        by_cases h202 : port = 202
        · rw [if_pos h202]
          have : data = [] := Decidable.byContradiction fun hd => hp ⟨hd, h202⟩
          rw [this]; rfl
        · rw [if_neg h202]
      rw [hf]
      exact ⟨[], hnone _ _ rfl (by rw [hc]), rfl, by simp, ha, by simp⟩

/-- What an observer knows agrees with the variables. -/
structure SyncOf (v : SyncView) (c : Cs) : Prop where
  cbs : v.cbs = c.cbs.map (·.period)
  token : c.token.toNat = v.count % 16
  pending : c.ansPending = !v.held.isEmpty
  ans : c.ansPending = true → c.ans = v.held
  len : c.ans.length ≤ 9
  heldLen : v.held.length ≤ 9

theorem found_eq {v : SyncView} {c : Cs} (h : v.cbs = c.cbs.map (·.period)) (port : Byte) (data : Bytes) (unix : U32) (cb : CsCbs) (hcb : c.cbs = none ∨ c.cbs = some cb) :
    (match v.cbs with | some p => if port = 202 then answers p unix.toNat (readSync [] data) else [] | none => []) =
    answers cb.period unix.toNat (found c.cbs port data) := by
  rw [h]
  rcases hcb with h | h <;> rw [h]
  · rfl
  · simp only [Option.map_some, found]
    split <;> rfl

theorem sync_step {E : Env} {v : SyncView} {s s' : Sys} {op : SOp} {r : Ret} {ev : List SEv} (h : SyncOf v s.cs) (hv : op.Valid)
    (hs : sysStep E s op = .ok (r, s', ev)) : SyncOf (v.next ⟨s, op, r, ev, s'⟩) s'.cs := by
  have hsend : ∀ {c : Cs} {pld : Bytes} {rnd : Nat} {r : Ret} {s' : Sys} {ev : List SEv}, csSend E ⟨s.stack, c⟩ pld rnd = .ok (r, s', ev) → s'.cs = c := by
    intro c pld rnd r s' ev h
    unfold csSend at h
    obtain ⟨⟨r1, st, e1⟩, -, h⟩ := bind_ok h
    simp only [Except.ok.injEq, Prod.mk.injEq] at h
    rw [← h.2.1]
  cases op with
  | stack op =>
    obtain ⟨⟨r1, st, e1⟩, -, hs⟩ := bind_ok hs
    simp only [Except.ok.injEq, Prod.mk.injEq] at hs
    rw [← hs.2.1]
    exact h
  | csInit cbs =>
    simp only [sysStep, Except.ok.injEq, Prod.mk.injEq] at hs
    rw [← hs.2.1]
    exact ⟨rfl, rfl, rfl, by simp [csInit], by simp [csInit], by simp [SyncView.next]⟩
  | csHandle err port data tail unix =>
    obtain ⟨⟨c, e⟩, hc, hs⟩ := bind_ok hs
    simp only [Except.ok.injEq, Prod.mk.injEq] at hs
    obtain ⟨-, rfl, rfl⟩ := hs
    by_cases he : err = .no
    · subst he
      obtain ⟨cb, hcb, out, hR, h1, h2, h3, -⟩ := csHandle_res hv (by rw [h.token]; exact Nat.mod_lt _ (Nat.succ_pos 15)) h.len hc
      have hheld : (v.next ⟨s, .csHandle .no port data tail unix, r, e.map .cs, { s with cs := c }⟩).held = out := by
        show (match v.cbs with | some p => if port = 202 then answers p unix.toNat (readSync [] data) else [] | none => []) = out
        rw [found_eq h.cbs port data unix cb hcb, hR.out, List.nil_append]
      refine ⟨?_, ?_, ?_, ?_, h3, ?_⟩
      · show v.cbs = _
        rw [h.cbs, hR.cbs]
      · show c.token.toNat = (v.count + (corrections (callsOf (e.map .cs))).length) % 16
        rw [callsOf_cs, hR.token, h.token]; omega
      · rw [hheld]; exact h1
      · rw [hheld]; exact h2
      · rw [hheld]
        cases hp : c.ansPending with
        | true => rw [← h2 hp]; exact h3
        | false =>
          rw [hp] at h1
          have : out = [] := by simpa using h1
          rw [this]; simp
    · unfold csHandle at hc
      rw [if_pos he] at hc
      simp only [Except.ok.injEq, Prod.mk.injEq] at hc
      rw [← hc.1]
      simpa [SyncView.next, he] using h
  | csTimeReq ans unix rnd =>
    obtain ⟨⟨c, p⟩, hc, hs⟩ := bind_ok hs
    show SyncOf v _
    cases p with
    | none =>
      simp only [Except.ok.injEq, Prod.mk.injEq] at hs
      rw [← hs.2.1]; exact h
    | some pld =>
      obtain ⟨⟨r1, st, e1⟩, hq, hs⟩ := bind_ok hs
      simp only [Except.ok.injEq, Prod.mk.injEq] at hs
      rw [← hs.2.1, hsend hq]
      unfold csTimeReq at hc
      cases hcb : s.cs.cbs with
      | none => rw [hcb] at hc; simp at hc
      | some cb =>
        rw [hcb] at hc
        simp only at hc
        have hl : (if s.cs.ansPending = true then s.cs.ans else []).length ≤ 9 := by
          split
          · exact h.len
          · simp
        rw [if_neg (by omega), if_neg (by omega)] at hc
        simp only [Except.ok.injEq, Prod.mk.injEq] at hc
        rw [← hc.1]
        exact ⟨by rw [h.cbs, hcb], h.token, h.pending, h.ans, h.len, h.heldLen⟩
  | csIsPending =>
    simp only [sysStep, Except.ok.injEq, Prod.mk.injEq] at hs
    rw [← hs.2.1]; exact h
  | csSendAnsw rnd =>
    show SyncOf v _
    replace hs : (if s.cs.ansPending then csSend E s s.cs.ans rnd else .ok (.err .state, s, [])) = .ok (r, s', ev) := hs
    split at hs
    · rw [hsend (c := s.cs) hs]; exact h
    · simp only [Except.ok.injEq, Prod.mk.injEq] at hs
      rw [← hs.2.1]; exact h

theorem syncView_snoc (log : List SItem) (it : SItem) : syncView (log ++ [it]) = (syncView log).next it := by
  simp [syncView, List.foldl_append]

theorem sync_hist {E : Env} {log : List SItem} {s : Sys} (h : SHist E log s) : SyncOf (syncView log) s.cs := by
  induction h with
  | nil => exact ⟨rfl, rfl, rfl, by simp [Cs.boot], by simp [Cs.boot], by simp [syncView]⟩
  | snoc h hv hs ih => rw [syncView_snoc]; exact sync_step ih hv hs

theorem SHist.last {E : Env} {log : List SItem} {it : SItem} {s : Sys} (h : SHist E (log ++ [it]) s) :
    ∃ s0, SHist E log s0 ∧ it.pre = s0 ∧ it.post = s ∧ it.op.Valid ∧ sysStep E s0 it.op = .ok (it.ret, s, it.ev) := by
  generalize hl : log ++ [it] = l at h
  cases h with
  | nil => simp at hl
  | snoc h hv hs =>
    obtain ⟨rfl, h2⟩ := List.append_inj' hl rfl
    injection h2 with h2 _
    subst h2
    exact ⟨_, h, rfl, rfl, hv, hs⟩

theorem SHist.take {E : Env} {log a b : List SItem} {s : Sys} (h : SHist E log s) (hl : log = a ++ b) : ∃ s', SHist E a s' := by
  induction h generalizing b with
  | nil =>
    obtain ⟨rfl, rfl⟩ := List.append_eq_nil_iff.mp hl.symm
    exact ⟨_, .nil⟩
  | snoc h hv hs ih =>
    rcases List.eq_nil_or_concat b with rfl | ⟨b', x, rfl⟩
    · rw [List.append_nil] at hl
      rw [← hl]
      exact ⟨_, h.snoc hv hs⟩
    · rw [List.concat_eq_append, ← List.append_assoc] at hl
      exact ih (List.append_inj' hl rfl).1

/-- The calls the stack makes. -/
def stackOf (ev : List SEv) : List Ev := ev.filterMap fun | .st e => some e | .cs _ => none

theorem stackOf_st (ev : List Ev) : stackOf (ev.map .st) = ev := by
  unfold stackOf
  rw [List.filterMap_map]
  induction ev with
  | nil => rfl
  | cons e l ih => exact congrArg (e :: ·) ih

theorem stackOf_cs (ev : List CsEv) : stackOf (ev.map .cs) = [] := by
  unfold stackOf
  rw [List.filterMap_map]
  induction ev with
  | nil => rfl
  | cons e l ih => exact ih

/-- The payload of a time request. -/
def timeReqPld (c : Cs) (ans : Bool) (unix : U32) : Bytes :=
  (if c.ansPending then c.ans else []) ++ [0x1] ++ gpsBytes unix ++ [c.token ||| (if ans then 0x10 else 0)]

theorem csTimeReq_eq {c : Cs} (h : c.ans.length ≤ 9) (ans : Bool) (unix : U32) :
    csTimeReq c ans unix = if c.cbs.isSome then .ok ({ c with reqPending := true }, some (timeReqPld c ans unix)) else .ok (c, none) := by
  unfold csTimeReq
  cases hcb : c.cbs with
  | none => rfl
  | some cb =>
    have hl : (if c.ansPending = true then c.ans else []).length ≤ 9 := by
      split
      · exact h
      · simp
    simp only
    rw [if_neg (by omega), if_neg (by omega)]
    rfl

theorem timeReqPld_length {c : Cs} (h : c.ans.length ≤ 9) (ans : Bool) (unix : U32) : (timeReqPld c ans unix).length ≤ 15 := by
  unfold timeReqPld
  have hl : (if c.ansPending = true then c.ans else []).length ≤ 9 := by
    split
    · exact h
    · simp
  simp [gpsBytes]; omega

/-- Seen from the stack, a history with the package is a history of the stack alone. -/
theorem stack_hist {E : Env} {log : List SItem} {s : Sys} (h : SHist E log s) :
    ∃ l, Hist E l s.stack ∧ trace l = stackOf (sysTrace log) := by
  induction h with
  | nil => exact ⟨[], .nil, rfl⟩
  | @snoc log s1 s2 op r ev h hv hs ih =>
    obtain ⟨l, hl, ht⟩ := ih
    have hap : stackOf (sysTrace (log ++ [⟨s1, op, r, ev, s2⟩])) = trace l ++ stackOf ev := by
      rw [ht]
      simp [stackOf, sysTrace]
    have hidle : stackOf ev = [] → s2.stack = s1.stack → ∃ l, Hist E l s2.stack ∧ trace l = stackOf (sysTrace (log ++ [⟨s1, op, r, ev, s2⟩])) := by
      intro h1 h2
      exact ⟨l, h2 ▸ hl, by rw [hap, h1, List.append_nil]⟩
    have hmove : ∀ {o : Op} {r' : Ret} {st : St} {e : List Ev}, o.Valid → step E s1.stack o = .ok (r', st, e) → stackOf ev = e → s2.stack = st →
        ∃ l, Hist E l s2.stack ∧ trace l = stackOf (sysTrace (log ++ [⟨s1, op, r, ev, s2⟩])) := by
      intro o r' st e h1 h2 h3 h4
      refine ⟨_, h4 ▸ hl.snoc h1 h2, ?_⟩
      rw [hap, h3]; simp [trace]
    have hsend : ∀ {s : Sys} {pld : Bytes} {rnd : Nat} {r' : Ret} {s' : Sys} {e : List SEv}, s.stack = s1.stack → pld.length ≤ 255 → csSend E s pld rnd = .ok (r', s', e) →
        stackOf ev = stackOf e → s2.stack = s'.stack → ∃ l, Hist E l s2.stack ∧ trace l = stackOf (sysTrace (log ++ [⟨s1, op, r, ev, s2⟩])) := by
      intro s pld rnd r' s' e h0 h1 h2 h3 h4
      unfold csSend at h2
      obtain ⟨⟨r1, st, e1⟩, hst, h2⟩ := bind_ok h2
      simp only [Except.ok.injEq, Prod.mk.injEq] at h2
      obtain ⟨-, rfl, rfl⟩ := h2
      rw [h0] at hst
      refine hmove (o := .send 202 pld false rnd) h1 hst ?_ h4
      rw [h3]
      exact stackOf_st e1
    have hlen := (sync_hist h).len
    cases op with
    | stack op =>
      obtain ⟨⟨r1, st, e1⟩, hst, hs⟩ := bind_ok hs
      simp only [Except.ok.injEq, Prod.mk.injEq] at hs
      obtain ⟨-, rfl, rfl⟩ := hs
      exact hmove hv hst (stackOf_st e1) rfl
    | csInit cbs =>
      simp only [sysStep, Except.ok.injEq, Prod.mk.injEq] at hs
      obtain ⟨-, rfl, rfl⟩ := hs
      exact hidle rfl rfl
    | csHandle err port data tail unix =>
      obtain ⟨⟨c, e⟩, hc, hs⟩ := bind_ok hs
      simp only [Except.ok.injEq, Prod.mk.injEq] at hs
      obtain ⟨-, rfl, rfl⟩ := hs
      exact hidle (stackOf_cs e) rfl
    | csTimeReq ans unix rnd =>
      obtain ⟨⟨c, p⟩, hc, hs⟩ := bind_ok hs
      rw [csTimeReq_eq hlen] at hc
      split at hc
      · simp only [Except.ok.injEq, Prod.mk.injEq] at hc
        obtain ⟨rfl, rfl⟩ := hc
        obtain ⟨⟨r1, st, e1⟩, hq, hs⟩ := bind_ok hs
        simp only [Except.ok.injEq, Prod.mk.injEq] at hs
        obtain ⟨-, rfl, rfl⟩ := hs
        have := timeReqPld_length hlen ans unix
        exact hsend (s := { s1 with cs := { s1.cs with reqPending := true } }) (pld := timeReqPld s1.cs ans unix) rfl (by omega) hq rfl rfl
      · simp only [Except.ok.injEq, Prod.mk.injEq] at hc
        obtain ⟨rfl, rfl⟩ := hc
        simp only [Except.ok.injEq, Prod.mk.injEq] at hs
        obtain ⟨-, rfl, rfl⟩ := hs
        exact hidle rfl rfl
    | csIsPending =>
      simp only [sysStep, Except.ok.injEq, Prod.mk.injEq] at hs
      obtain ⟨-, rfl, rfl⟩ := hs
      exact hidle rfl rfl
    | csSendAnsw rnd =>
      replace hs : (if s1.cs.ansPending then csSend E s1 s1.cs.ans rnd else .ok (.err .state, s1, [])) = .ok (r, s2, ev) := hs
      split at hs
      · exact hsend rfl (by omega) hs rfl rfl
      · simp only [Except.ok.injEq, Prod.mk.injEq] at hs
        obtain ⟨-, rfl, rfl⟩ := hs
        exact hidle rfl rfl

/-- A frame handed to the stack by the package. -/
theorem csSend_ok {E : Env} {log : List SItem} {s : Sys} (h : SHist E log s) (c : Cs) {pld : Bytes} (hp : pld.length ≤ 255) (rnd : Nat) :
    ∃ r st sev, step E s.stack (.send 202 pld false rnd) = .ok (r, st, sev) ∧
      csSend E ⟨s.stack, c⟩ pld rnd = .ok (r, ⟨st, c⟩, .cs (.sendFrame 202 pld false) :: sev.map .st) := by
  obtain ⟨l, hl, -⟩ := stack_hist h
  rcases step_ok E hl.inv (op := .send 202 pld false rnd) hp with ⟨r, st, sev, h1, -⟩ | ⟨h1, -⟩
  · refine ⟨r, st, sev, h1, ?_⟩
    unfold csSend
    simp only
    rw [h1]
    rfl
  · exact h1.elim

end Uwan
