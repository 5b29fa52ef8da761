import Verif.Props.Sx127x
import Verif.Props.Sx126x

/-!
# Antenna switch and board I/O (C89)
-/

namespace Uwan.Sx127x
open Spec Prog

theorem board_quiet : ∀ l : List Bus, board127 (quiet l) = board127 l
  | [] => rfl
  | .frame o i :: l => by
    have := board_quiet l
    simp only [quiet, board127, List.flatMap_cons] at *
    rw [this]
  | .other c r :: l => by
    have := board_quiet l
    cases c <;> simp only [quiet, board127, List.flatMap_cons] at * <;> first | rw [this] | skip
    simp [boardCall]

theorem board_append (a b : List Bus) : board127 (a ++ b) = board127 a ++ board127 b := by simp [board127]

/-- The program is defined and well framed, and does `x` to the board. -/
def wb {α : Type} (p : Prog α) (x : List Board) : Prop := wp p fun _ l => board127 l = x

theorem wb_pure {α : Type} {a : α} : wb (pure a : Prog α) [] := wp_ret rfl

theorem wb_bind {α β : Type} {p : Prog α} {f : α → Prog β} {x y : List Board} (h : wb p x) (k : ∀ a, wb (f a) y) :
    wb (p >>= f) (x ++ y) :=
  wp_bind (wp_mono h fun a _ i => wp_mono (k a) fun _ _ j => by rw [board_append, i, j])

theorem wb_calm {α β : Type} {p : Prog α} {f : α → Prog β} {y : List Board} (h : wb p []) (k : ∀ a, wb (f a) y) :
    wb (p >>= f) y := by simpa using wb_bind h k

theorem wb_readReg {a : Byte} (ha : a.toNat < 128) : wb (readReg a) [] :=
  wp_readReg fun m v => by simp [board127, accesses, ha, burst, start127]

theorem wb_writeReg {a d : Byte} (ha : a.toNat < 128) : wb (writeReg a d) (start127 (.write a.toNat d)) :=
  wp_writeReg fun m hm => by
    match m, hm with
    | [x, y], _ =>
      simp only [board127, List.flatMap_cons, List.flatMap_nil, List.append_nil, accesses]
      rw [or80 a ha, if_neg (by omega), Nat.add_sub_cancel]
      simp [burst]

theorem wb_write {a d : Byte} (ha : a.toNat < 128) (h1 : a.toNat ≠ 1) : wb (writeReg a d) [] := by
  have := wb_writeReg (d := d) ha
  simpa [start127, h1] using this

theorem calm_burst : ∀ (d : Bytes) (a : Nat), a ≠ 1 → (burst .write a d).flatMap start127 = []
  | [], _, _ => rfl
  | v :: vs, a, h => by
    simp only [burst, List.flatMap_cons]
    rw [calm_burst vs _ (by split <;> omega)]
    simp [start127, h]

theorem wb_writeRegs {a : Byte} {d : Bytes} (ha : a.toNat < 128) (h1 : a.toNat ≠ 1) : wb (writeRegs a d) [] := by
  refine wp_bind (wp_frame fun miso hm => wp_ret ?_)
  cases miso with
  | nil => exact nomatch hm
  | cons m ms =>
    simp only [List.append_nil, board127, List.flatMap_cons, List.flatMap_nil, accesses]
    rw [or80 a ha, if_neg (by omega), Nat.add_sub_cancel]
    exact calm_burst d _ h1

theorem wb_do {c : Call} (hc : Plain c) : wb (do_ c) (boardCall c) := wp_do hc fun r => by simp [board127]

theorem wb_opt {b : Bool} {c : Call} (hc : Plain c) : wb (opt b c) (if b then boardCall c else []) := by
  cases b with
  | true => exact wb_do hc
  | false => exact wb_pure

theorem start_op (v : Byte) : start127 (.write 1 (opVal v 0)) = [] ∧ start127 (.write 1 (opVal v 1)) = [] ∧
    start127 (.write 1 (opVal v 3)) = [.start false] ∧ start127 (.write 1 (opVal v 5)) = [.start true] ∧
    start127 (.write 1 (opVal v 6)) = [.start true] := by
  revert v; decide +kernel

theorem wb_setOpMode {m : Byte} {x : List Board} (h : ∀ v, start127 (.write 1 (opVal v m)) = x) : wb (setOpMode m) x :=
  wb_calm (wb_readReg (by decide)) fun v => by rw [← h v]; exact wb_writeReg (by decide)

theorem wb_setInvertedIq {b : Bool} : wb (setInvertedIq b) [] := by
  unfold setInvertedIq
  cases b <;> exact wb_calm (wb_write (by decide) (by decide)) fun _ => wb_write (by decide) (by decide)

theorem wb_setPublicNetwork {b : Bool} : wb (setPublicNetwork b) [] := by
  unfold setPublicNetwork
  cases b <;> exact wb_write (by decide) (by decide)

theorem wb_setFreq {f : U32} : wb (setFreq f) [] := wb_writeRegs (by decide) (by decide)

theorem wb_setPower {p : BitVec 8} {o : BitVec 16} : wb (setPower p o) [] := by
  unfold setPower
  split
  · exact wb_pure
  · split
    · exact wb_calm (wb_write (by decide) (by decide)) fun _ => wb_pure
    · exact wb_calm (wb_write (by decide) (by decide)) fun _ => wb_pure

theorem wb_calLoop : ∀ n, wb (calLoop n) []
  | 0 => wb_pure
  | n + 1 => wb_calm (wb_do (by trivial)) fun _ => wb_calm (wb_readReg (by decide)) fun v => by
    split
    · exact wb_calLoop n
    · exact wb_pure

theorem wb_rxCalibration : wb rxCalibration [] :=
  wb_calm wb_setFreq fun _ => wb_calm (wb_readReg (by decide)) fun _ => wb_calm (wb_write (by decide) (by decide)) fun _ =>
    wb_calm (wb_calLoop _) fun _ => wb_pure

theorem wb_init {h : Hal} : wb (init h) (provided h.ioDeinit .ioDeinit) := by
  refine wb_calm (wb_do (by trivial)) fun _ => wb_calm (wb_do (by trivial)) fun _ => wb_calm (wb_do (by trivial)) fun _ =>
    wb_calm (wb_do (by trivial)) fun _ => ?_
  have := wb_bind (wb_opt (b := h.ioDeinit) (c := .ioDeinit) (by trivial)) (y := [])
    (f := fun _ => do
      let version ← readReg 0x42
      if version ≠ 0x12 then pure false
      else do
        let cal ← rxCalibration
        if cal = false then pure false
        else do
          writeReg 0x01 0x00
          writeReg 0x01 0x80
          setPublicNetwork true
          writeReg 0x0a 0x08
          writeReg 0x0c 0x23
          pure true) ?_
  · simpa [provided, boardCall] using this
  · intro _
    refine wb_calm (wb_readReg (by decide)) fun v => ?_
    split
    · exact wb_pure
    · refine wb_calm wb_rxCalibration fun c => ?_
      split
      · exact wb_pure
      · exact wb_calm (wb_writeReg (by decide)) fun _ => wb_calm (wb_writeReg (by decide)) fun _ => wb_calm wb_setPublicNetwork fun _ =>
          wb_calm (wb_write (by decide) (by decide)) fun _ => wb_calm (wb_write (by decide) (by decide)) fun _ => wb_pure

theorem wb_sleep {h : Hal} : wb (sleep h) (provided h.ioDeinit .ioDeinit) :=
  wb_calm (wb_setOpMode fun v => (start_op v).1) fun _ => wb_opt (by trivial)

theorem wb_setup {h : Hal} {p : PktParams} : wb (setup h p) (provided h.ioInit .ioInit) :=
  wb_calm (wb_setOpMode fun v => (start_op v).2.1) fun _ => wb_calm (wb_write (by decide) (by decide)) fun _ =>
    wb_calm (wb_write (by decide) (by decide)) fun _ => wb_calm (wb_write (by decide) (by decide)) fun _ =>
    wb_calm wb_setInvertedIq fun _ => wb_opt (by trivial)

theorem wb_tx {h : Hal} {buf : Bytes} : wb (tx h buf) (provided h.antSw (.antenna false) ++ [.start false]) :=
  wb_calm (wb_write (by decide) (by decide)) fun _ => wb_calm (wb_write (by decide) (by decide)) fun _ =>
    wb_calm (wb_writeRegs (by decide) (by decide)) fun _ => wb_calm (wb_write (by decide) (by decide)) fun _ =>
    wb_calm (wb_write (by decide) (by decide)) fun _ => wb_calm (wb_write (by decide) (by decide)) fun _ =>
    wb_bind (wb_opt (by trivial)) fun _ => wb_setOpMode fun v => (start_op v).2.2.1

theorem wb_rx {h : Hal} {len : Byte} {symb : U16} {tmo : U32} :
    wb (rx h len symb tmo) (provided h.antSw (.antenna true) ++ [.start true]) :=
  wb_calm (wb_readReg (by decide)) fun _ => wb_calm (wb_write (by decide) (by decide)) fun _ =>
    wb_calm (wb_write (by decide) (by decide)) fun _ => wb_calm (wb_write (by decide) (by decide)) fun _ =>
    wb_calm (wb_write (by decide) (by decide)) fun _ => wb_calm (wb_write (by decide) (by decide)) fun _ =>
    wb_calm (wb_write (by decide) (by decide)) fun _ => wb_calm (wb_write (by decide) (by decide)) fun _ =>
    wb_calm (wb_write (by decide) (by decide)) fun _ => wb_calm (wb_write (by decide) (by decide)) fun _ =>
    wb_bind (wb_opt (by trivial)) fun _ => by
      split
      · exact wb_setOpMode fun v => (start_op v).2.2.2.2
      · exact wb_setOpMode fun v => (start_op v).2.2.2.1

theorem calm_reads (a : Nat) : ∀ (d : Bytes), (burst .read a d).flatMap start127 = []
  | [] => rfl
  | v :: vs => by simp only [burst, List.flatMap_cons, calm_reads _ vs, start127, List.append_nil]

theorem wb_readArray {a : Byte} {buf : Bytes} {n : Nat} (ha : a.toNat < 128) (h : n ≤ buf.length) : wb (readArray a buf n) [] :=
  wp_readArray h fun m vs _ => by
    simp only [board127, List.flatMap_cons, List.flatMap_nil, List.append_nil, accesses]
    rw [if_pos ha]
    exact calm_reads _ _

theorem wb_readPacket {o : BitVec 16} {buf : Bytes} : wb (readPacket o buf) [] := by
  refine wb_calm (wb_readReg (by decide)) fun _ => wb_calm (wb_write (by decide) (by decide)) fun _ =>
    wb_calm (wb_readReg (by decide)) fun n => ?_
  have em : (if n.toNat > buf.length then buf.length else n.toNat) ≤ buf.length := by split <;> omega
  revert em
  generalize (if n.toNat > buf.length then buf.length else n.toNat) = k
  intro em
  by_cases h0 : k > 0 <;> simp only [h0, if_true, if_false]
  · exact wb_calm (wb_readArray (by decide) em) fun _ => wb_calm (wb_readReg (by decide)) fun _ =>
      wb_calm (wb_readReg (by decide)) fun _ => wb_pure
  · exact wb_calm wb_pure fun _ => wb_calm (wb_readReg (by decide)) fun _ => wb_calm (wb_readReg (by decide)) fun _ => wb_pure

theorem wb_randLoop : ∀ n i r u, wb (randLoop n i r u) []
  | 0, _, _, _ => wb_pure
  | n + 1, i, r, u => wb_calm (wb_do (by trivial)) fun _ => wb_calm (wb_readReg (by decide)) fun _ => wb_randLoop n _ _ _

theorem wb_rand : wb rand [.start true] :=
  wb_calm (wb_write (by decide) (by decide)) fun _ => wb_bind (y := []) (wb_setOpMode fun v => (start_op v).2.2.2.1) fun _ =>
    wb_calm (wb_randLoop _ _ _ _) fun _ => wb_calm (wb_setOpMode fun v => (start_op v).1) fun _ => wb_pure

theorem wb_irqHandler {b : Bool} : wb (irqHandler b) [] := by
  refine wb_calm (wb_readReg (by decide)) fun v => wb_calm (wb_write (by decide) (by decide)) fun _ => wb_calm ?_ fun _ => wb_pure
  cases b with
  | true => exact wb_do (by trivial)
  | false => exact wb_pure

theorem wb_exec {α : Type} {p : Prog α} {x : List Board} (h : wb p x) {tr : Trace} {a : α} (e : Exec p tr a) :
    ∃ l, bus tr = some l ∧ board127 l = x := by
  obtain ⟨l, hb, hq⟩ := h.2 tr a e
  exact ⟨l, hb, by rwa [board_quiet] at hq⟩

theorem halOf_snoc (log : List DItem) (x : DItem) : halOf (log ++ [x]) = match x.op with | .init h _ => h | _ => halOf log := by
  obtain ⟨op, _, _⟩ := x
  cases op <;> simp [halOf]

/-- The driver uses the HAL given to the last `init`. -/
theorem hal_kept {log : List DItem} {s : St} (h : Calls step .zero log s) : s.hal = halOf log := by
  induction h with
  | nil => rfl
  | @snoc log s s' op tr r hc hv e ih =>
    rw [halOf_snoc]
    cases op with
    | init a b =>
      cases a with
      | none => exact (exec_fail e).elim
      | some a =>
        obtain ⟨_, _, ex⟩ := exec_map e
        injection ex with _ ex
        rw [ex]
    | setEvtHandler b =>
      obtain ⟨_, ex⟩ := exec_ret e
      injection ex with _ ex
      rw [ex]; exact ih
    | setPower p =>
      cases hh : s.hal with
      | none =>
        simp only [step, hh] at e
        split at e
        · obtain ⟨_, ex⟩ := exec_ret e
          injection ex with _ ex
          rw [ex]; exact ih
        · exact (exec_fail e).elim
      | some hal =>
        simp only [step, hh] at e
        obtain ⟨_, _, a, _, _, e2⟩ := exec_bind e
        obtain ⟨_, ex⟩ := exec_ret e2
        injection ex with _ ex
        rw [ex, ← ih, hh]
    | _ =>
      obtain ⟨hal, hh⟩ := hal_of_exec e (by simp) (by simp) (by simp)
      simp only [step, hh] at e
      obtain ⟨_, _, ex⟩ := exec_map e
      injection ex with _ ex
      rw [ex, ← ih]

/-- **C89** (SX127x) After any driver calls, another call does to the board exactly what it should, in this order: `tx` turns the antenna
switch and then starts the transmitter, `rx` likewise the receiver, `setup` initialises and `sleep` releases the board I/O, `init` releases
it, `rand` only starts the receiver, and nothing else touches the board; each function only if the HAL provides it. -/
theorem C89_board {log : List DItem} {s s' : St} {op : DOp} {tr : Trace} {r : DRet} (h : Calls step .zero log s)
    (e : Exec (step s op) tr (r, s')) :
    ∃ l, bus tr = some l ∧ match op with
      | .init hal _ => ∃ h, hal = some h ∧ board127 l = provided h.ioDeinit .ioDeinit
      | .rand => board127 l = [.start true]
      | op => (∃ h, halOf log = some h ∧ board127 l = expected h op) ∨ ((∃ b, op = .setEvtHandler b) ∨ ∃ p, op = .setPower p) ∧ board127 l = [] := by
  rw [← hal_kept h]
  cases op with
  | init a b =>
    cases a with
    | none => exact (exec_fail e).elim
    | some a =>
      obtain ⟨_, e1, ex⟩ := exec_map e
      obtain ⟨l, h1, h2⟩ := wb_exec wb_init e1
      exact ⟨l, h1, a, rfl, h2⟩
  | setEvtHandler b =>
    obtain ⟨rfl, ex⟩ := exec_ret e
    exact ⟨[], rfl, .inr ⟨.inl ⟨b, rfl⟩, rfl⟩⟩
  | setPower p =>
    cases hh : s.hal with
    | none =>
      simp only [step, hh] at e
      split at e
      · obtain ⟨rfl, ex⟩ := exec_ret e
        exact ⟨[], rfl, .inr ⟨.inr ⟨p, rfl⟩, rfl⟩⟩
      · exact (exec_fail e).elim
    | some hal =>
      simp only [step, hh] at e
      obtain ⟨_, e1, ex⟩ := exec_map e
      obtain ⟨l, h1, h2⟩ := wb_exec wb_setPower e1
      exact ⟨l, h1, .inr ⟨.inr ⟨p, rfl⟩, h2⟩⟩
  | rand =>
    obtain ⟨hal, hh⟩ := hal_of_exec e (by simp) (by simp) (by simp)
    simp only [step, hh] at e
    obtain ⟨_, e1, ex⟩ := exec_map e
    exact wb_exec wb_rand e1
  | sleep =>
    obtain ⟨hal, hh⟩ := hal_of_exec e (by simp) (by simp) (by simp)
    simp only [step, hh] at e
    obtain ⟨_, e1, ex⟩ := exec_map e
    obtain ⟨l, h1, h2⟩ := wb_exec wb_sleep e1
    exact ⟨l, h1, .inl ⟨hal, hh, h2⟩⟩
  | setFrequency f =>
    obtain ⟨hal, hh⟩ := hal_of_exec e (by simp) (by simp) (by simp)
    simp only [step, hh] at e
    obtain ⟨_, e1, ex⟩ := exec_map e
    obtain ⟨l, h1, h2⟩ := wb_exec wb_setFreq e1
    exact ⟨l, h1, .inl ⟨hal, hh, h2⟩⟩
  | setPublicNetwork b =>
    obtain ⟨hal, hh⟩ := hal_of_exec e (by simp) (by simp) (by simp)
    simp only [step, hh] at e
    obtain ⟨_, e1, ex⟩ := exec_map e
    obtain ⟨l, h1, h2⟩ := wb_exec wb_setPublicNetwork e1
    exact ⟨l, h1, .inl ⟨hal, hh, h2⟩⟩
  | setup p =>
    obtain ⟨hal, hh⟩ := hal_of_exec e (by simp) (by simp) (by simp)
    simp only [step, hh] at e
    obtain ⟨_, e1, ex⟩ := exec_map e
    obtain ⟨l, h1, h2⟩ := wb_exec wb_setup e1
    exact ⟨l, h1, .inl ⟨hal, hh, h2⟩⟩
  | tx buf =>
    obtain ⟨hal, hh⟩ := hal_of_exec e (by simp) (by simp) (by simp)
    simp only [step, hh] at e
    obtain ⟨_, e1, ex⟩ := exec_map e
    obtain ⟨l, h1, h2⟩ := wb_exec wb_tx e1
    exact ⟨l, h1, .inl ⟨hal, hh, h2⟩⟩
  | rx len symb tmo =>
    obtain ⟨hal, hh⟩ := hal_of_exec e (by simp) (by simp) (by simp)
    simp only [step, hh] at e
    obtain ⟨_, e1, ex⟩ := exec_map e
    obtain ⟨l, h1, h2⟩ := wb_exec wb_rx e1
    exact ⟨l, h1, .inl ⟨hal, hh, h2⟩⟩
  | readPacket buf =>
    obtain ⟨hal, hh⟩ := hal_of_exec e (by simp) (by simp) (by simp)
    simp only [step, hh] at e
    obtain ⟨_, e1, ex⟩ := exec_map e
    obtain ⟨l, h1, h2⟩ := wb_exec wb_readPacket e1
    exact ⟨l, h1, .inl ⟨hal, hh, h2⟩⟩
  | irqHandler =>
    obtain ⟨hal, hh⟩ := hal_of_exec e (by simp) (by simp) (by simp)
    simp only [step, hh] at e
    obtain ⟨_, e1, ex⟩ := exec_map e
    obtain ⟨l, h1, h2⟩ := wb_exec wb_irqHandler e1
    exact ⟨l, h1, .inl ⟨hal, hh, h2⟩⟩

/-- A transmission with all three functions provided. -/
example : halOf (madeBy day) = some ⟨true, true, true⟩ ∧ ((step up (.tx [7])).play scripted []).bind (fun x => (bus x.1).map board127) =
    some [.antenna false, .start false] := by decide +kernel

end Uwan.Sx127x

namespace Uwan.Sx126x
open Spec Prog

theorem board_quiet : ∀ l : List Bus, board126 (quiet l) = board126 l
  | [] => rfl
  | .frame o i :: l => by
    have := board_quiet l
    simp only [quiet, board126, List.flatMap_cons] at *
    rw [this]
  | .other c r :: l => by
    have := board_quiet l
    cases c <;> simp only [quiet, board126, List.flatMap_cons] at * <;> first | rw [this] | skip
    simp [boardCall]

theorem board_append (a b : List Bus) : board126 (a ++ b) = board126 a ++ board126 b := by simp [board126]

theorem board_wake {b : Bool} {pre : List Bus} (h : Wake b pre) : board126 pre = [] := by cases h <;> rfl

theorem board_opt (b : Bool) (c : Call) (r : Byte) : board126 (if b then [.other c r] else []) = if b then boardCall c else [] := by
  cases b <;> simp [board126]

theorem hal_kept {log : List DItem} {s : St} (h : Calls step .zero log s) : s.hal = halOf log := by
  induction h with
  | nil => rfl
  | @snoc log s s' op tr r hc hv e ih =>
    rw [Sx127x.halOf_snoc]
    have hk := keep_step e
    cases op with
    | init h o => injection hk
    | _ =>
      injection hk with h1 h2
      rw [h1]
      exact ih

theorem board_exec {α : Type} {d : Drv α} {b : Bool} {x : List Board} (h : wd d b fun _ _ l => board126 l = x) {tr : Trace}
    {y : α × Bool} (e : Exec (d b) tr y) : ∃ l, bus tr = some l ∧ board126 l = x := by
  obtain ⟨l, hb, hq⟩ := wd_exec h e
  exact ⟨l, hb, by rwa [board_quiet] at hq⟩

/-- **C89** (SX126x) After any driver calls, another call does to the board exactly what it should, in this order: `tx` turns the antenna
switch and then starts the transmitter, `rx` likewise the receiver, `setup` initialises and `sleep` releases the board I/O, `init` releases
it (again before it returns true), `rand` receives and sleeps, and nothing else touches the board; each function only if the HAL provides it. -/
theorem C89_board {log : List DItem} {s s' : St} {op : DOp} {tr : Trace} {r : DRet} (h : Calls step .zero log s)
    (e : Exec (step s op) tr (r, s')) :
    ∃ l, bus tr = some l ∧ match op with
      | .init (some h) (some _) =>
        board126 l = provided h.ioDeinit .ioDeinit ++ if r = .bool true then provided h.ioDeinit .ioDeinit else []
      | .init _ _ => l = []
      | .rand => ∃ h, halOf log = some h ∧
        board126 l = provided h.antSw (.antenna true) ++ [.start true] ++ provided h.ioDeinit .ioDeinit
      | op => (∃ h, halOf log = some h ∧ board126 l = expected h op) ∨ ((∃ b, op = .setEvtHandler b) ∨ ∃ p, op = .setPower p) ∧ board126 l = [] := by
  rw [← hal_kept h]
  cases op with
  | init a b =>
    cases a with
    | none =>
      obtain ⟨rfl, ex⟩ := exec_ret e
      exact ⟨[], rfl, rfl⟩
    | some a =>
      cases b with
      | none =>
        obtain ⟨rfl, ex⟩ := exec_ret e
        exact ⟨[], rfl, rfl⟩
      | some o =>
        obtain ⟨ok, b, e1, rfl, _⟩ := exec_with e
        have key : wd (init a o) s.isSleep fun ok _ l => board126 l = provided a.ioDeinit .ioDeinit ++
            if DRet.bool ok = .bool true then provided a.ioDeinit .ioDeinit else [] := by
          refine wd_init ?_ ?_
          · intros
            simp only [initHead, board_append, board_opt]
            cases a.ioDeinit <;> cases o.useTcxo <;> simp [board126, boardCall, provided]
          · intros
            simp only [initHead, initTail, board_append, board_opt]
            cases a.ioDeinit <;> cases o.useTcxo <;> simp [board126, boardCall, provided]
        obtain ⟨l, h1, h2⟩ := wd_exec key e1
        exact ⟨l, h1, by rwa [board_quiet] at h2⟩
  | setEvtHandler b =>
    obtain ⟨rfl, ex⟩ := exec_ret e
    exact ⟨[], rfl, .inr ⟨.inl ⟨b, rfl⟩, rfl⟩⟩
  | setPower p =>
    suffices key : ∃ l, bus tr = some l ∧ board126 l = [] by
      obtain ⟨l, h1, h2⟩ := key
      exact ⟨l, h1, .inr ⟨.inr ⟨p, rfl⟩, h2⟩⟩
    have fin : ∀ {x}, Exec (pure x) tr (r, s') → ∃ l, bus tr = some l ∧ board126 l = [] := by
      intro x e
      obtain ⟨rfl, ex⟩ := exec_ret e
      exact ⟨[], rfl, rfl⟩
    cases ho : s.opts with
    | none =>
      simp only [step, ho] at e
      exact (Sx127x.exec_fail e).elim
    | some o =>
      cases hh : s.hal with
      | none =>
        simp only [step, ho, hh] at e
        split at e <;> split at e <;> first | exact fin e | exact (Sx127x.exec_fail e).elim
      | some hal =>
        simp only [step, ho, hh] at e
        obtain ⟨a, b, e1, _, _⟩ := exec_with e
        by_cases hp : if o.isHp then -9 ≤ p.toInt ∧ p.toInt ≤ 22 else -17 ≤ p.toInt ∧ p.toInt ≤ 15
        · refine board_exec ?_ e1
          cases hx : o.isHp
          · simp only [hx, Bool.false_eq_true, if_false] at hp
            exact wd_setPower_lp hx hp fun pre _ _ _ hw => by rw [board_append, board_wake hw]; simp [board126]
          · simp only [hx, if_true] at hp
            exact wd_setPower_hp hx hp fun pre _ _ _ _ _ _ _ _ _ hw => by rw [board_append, board_wake hw]; simp [board126]
        · rw [setPower_out hp] at e1
          obtain ⟨rfl, _⟩ := exec_ret e1
          exact ⟨[], rfl, rfl⟩
  | rand =>
    obtain ⟨hal, hh⟩ := hal_of_exec e (by simp) (by simp) (by simp)
    simp only [step, hh] at e
    obtain ⟨a, b, e1, _, _⟩ := exec_with e
    obtain ⟨l, h1, h2⟩ := board_exec (x := provided hal.antSw (.antenna true) ++ [.start true] ++ provided hal.ioDeinit .ioDeinit) (wd_rand (by
      intros
      rename_i hw
      simp only [board_append, board_opt, board_wake hw]
      cases hal.ioDeinit <;> cases hal.antSw <;> simp [board126, boardCall, provided, pktFrames])) e1
    exact ⟨l, h1, hal, hh, h2⟩
  | sleep =>
    obtain ⟨hal, hh⟩ := hal_of_exec e (by simp) (by simp) (by simp)
    simp only [step, hh] at e
    obtain ⟨a, b, e1, _, _⟩ := exec_with e
    obtain ⟨l, h1, h2⟩ := board_exec (x := provided hal.ioDeinit .ioDeinit) (wd_sleep (by
      intros
      rename_i hw
      simp only [board_append, board_opt, board_wake hw]
      cases hal.ioDeinit <;> simp [board126, boardCall, provided])) e1
    exact ⟨l, h1, .inl ⟨hal, hh, h2⟩⟩
  | setup p =>
    obtain ⟨hal, hh⟩ := hal_of_exec e (by simp) (by simp) (by simp)
    simp only [step, hh] at e
    obtain ⟨a, b, e1, _, _⟩ := exec_with e
    obtain ⟨l, h1, h2⟩ := board_exec (x := provided hal.ioInit .ioInit) (wd_setup (by
      intros
      rename_i hw
      simp only [board_append, board_opt, board_wake hw]
      cases hal.ioInit <;> simp [board126, boardCall, provided])) e1
    exact ⟨l, h1, .inl ⟨hal, hh, h2⟩⟩
  | tx p =>
    obtain ⟨hal, hh⟩ := hal_of_exec e (by simp) (by simp) (by simp)
    simp only [step, hh] at e
    obtain ⟨a, b, e1, _, _⟩ := exec_with e
    obtain ⟨l, h1, h2⟩ := board_exec (x := provided hal.antSw (.antenna false) ++ [.start false]) (wd_tx (by
      intros
      rename_i hw
      simp only [board_append, board_opt, board_wake hw]
      cases hal.antSw <;> simp [board126, boardCall, provided, pktFrames])) e1
    exact ⟨l, h1, .inl ⟨hal, hh, h2⟩⟩
  | rx len symb tmo =>
    obtain ⟨hal, hh⟩ := hal_of_exec e (by simp) (by simp) (by simp)
    simp only [step, hh] at e
    obtain ⟨a, b, e1, _, _⟩ := exec_with e
    obtain ⟨l, h1, h2⟩ := board_exec (x := provided hal.antSw (.antenna true) ++ [.start true]) (wd_rx (by
      intros
      rename_i hw
      simp only [board_append, board_opt, board_wake hw]
      cases hal.antSw <;> simp [board126, boardCall, provided, pktFrames])) e1
    exact ⟨l, h1, .inl ⟨hal, hh, h2⟩⟩
  | setFrequency f =>
    obtain ⟨hal, hh⟩ := hal_of_exec e (by simp) (by simp) (by simp)
    simp only [step, hh] at e
    obtain ⟨a, b, e1, _, _⟩ := exec_with e
    obtain ⟨l, h1, h2⟩ := board_exec (x := []) (wd_setFreq (by
      intros
      rename_i hw
      rw [board_append, board_wake hw]
      simp [board126])) e1
    exact ⟨l, h1, .inl ⟨hal, hh, h2⟩⟩
  | setPublicNetwork f =>
    obtain ⟨hal, hh⟩ := hal_of_exec e (by simp) (by simp) (by simp)
    simp only [step, hh] at e
    obtain ⟨a, b, e1, _, _⟩ := exec_with e
    obtain ⟨l, h1, h2⟩ := board_exec (x := []) (wd_setPublicNetwork (by
      intros
      rename_i hw
      rw [board_append, board_wake hw]
      simp [board126])) e1
    exact ⟨l, h1, .inl ⟨hal, hh, h2⟩⟩
  | readPacket f =>
    obtain ⟨hal, hh⟩ := hal_of_exec e (by simp) (by simp) (by simp)
    simp only [step, hh] at e
    obtain ⟨a, b, e1, _, _⟩ := exec_with e
    obtain ⟨l, h1, h2⟩ := board_exec (x := []) (wd_readPacket (by
      intros
      rename_i hw _
      rw [board_append, board_wake hw]
      simp [board126])) e1
    exact ⟨l, h1, .inl ⟨hal, hh, h2⟩⟩
  | irqHandler =>
    obtain ⟨hal, hh⟩ := hal_of_exec e (by simp) (by simp) (by simp)
    simp only [step, hh] at e
    obtain ⟨a, b, e1, _, _⟩ := exec_with e
    obtain ⟨l, h1, h2⟩ := board_exec (x := []) (wd_irqHandler (by
      intros
      rename_i hw _
      simp only [board_append, board_opt, board_wake hw]
      simp [board126, boardCall])) e1
    exact ⟨l, h1, .inl ⟨hal, hh, h2⟩⟩

/-- A transmission with all three functions provided. -/
example : halOf (madeBy day) = some ⟨true, true, true⟩ ∧ ((step (up false) (.tx [7])).play scripted []).bind (fun x => (bus x.1).map board126) =
    some [.antenna false, .start false] := by decide +kernel

end Uwan.Sx126x
