import Verif.Spec.Mac
import Verif.Lemmas.Received

/-! Sequences of MAC commands. -/

namespace Uwan
open Spec

variable {E : Env} {log : List Item} {it : Item} {s' : St}

theorem decode_length {l r : Bytes} {c : Cmd} (h : decode l = some (c, r)) : r.length < l.length := by
  unfold decode at h
  split at h
  · cases h
  · split at h <;> cases h <;> simp only [List.length_cons] <;> omega

theorem commands_parse : ∀ (n : Nat) (l : Bytes), l.length ≤ n →
    ∃ r, Parses l ((commands n l).map (·.1)) r ∧ decode r = none
  | 0, l, h => by
    have : l = [] := List.length_eq_zero_iff.mp (by omega)
    subst this
    exact ⟨[], .nil _, rfl⟩
  | n + 1, l, h => by
    unfold commands
    cases hd : decode l with
    | none => exact ⟨l, .nil _, hd⟩
    | some x =>
      obtain ⟨c, m⟩ := x
      have := decode_length hd
      obtain ⟨r, h1, h2⟩ := commands_parse n m (by omega)
      exact ⟨r, .cons hd h1, h2⟩

theorem Parses.unique {l : Bytes} {cs cs' : List Cmd} {r r' : Bytes} (h : Parses l cs r) (h' : Parses l cs' r')
    (hr : decode r = none) (hr' : decode r' = none) : cs = cs' ∧ r = r' := by
  induction h generalizing cs' r' with
  | nil l =>
    cases h' with
    | nil => exact ⟨rfl, rfl⟩
    | cons hd _ => rw [hr] at hd; cases hd
  | cons hd t ih =>
    cases h' with
    | nil => rw [hr'] at hd; cases hd
    | cons hd' t' =>
      rw [hd] at hd'
      simp only [Option.some.injEq, Prod.mk.injEq] at hd'
      obtain ⟨rfl, rfl⟩ := hd'
      obtain ⟨h1, h2⟩ := ih t' hr hr'
      exact ⟨by rw [h1], h2⟩

theorem execAll_append (bat : Nat → Byte) : ∀ (a b : List (Cmd × Nat)) (c : Cfg), c.goesOn bat a = true →
    c.execAll bat (a ++ b) =
      (((c.execAll bat a).1.execAll bat b).1, (c.execAll bat a).2 ++ ((c.execAll bat a).1.execAll bat b).2)
  | [], b, c, _ => by simp [Cfg.execAll]
  | (cmd, n) :: a, b, c, h => by
    unfold Cfg.goesOn at h
    obtain ⟨h1, h2⟩ := Bool.and_eq_true_iff.mp h
    simp only [List.cons_append, Cfg.execAll, h1, if_true, execAll_append bat a b _ h2, List.append_assoc]

theorem goesOn_append (bat : Nat → Byte) : ∀ (a b : List (Cmd × Nat)) (c : Cfg),
    c.goesOn bat (a ++ b) = (c.goesOn bat a && (c.execAll bat a).1.goesOn bat b)
  | [], b, c => by simp [Cfg.execAll, Cfg.goesOn]
  | (cmd, n) :: a, b, c => by
    simp only [List.cons_append, Cfg.goesOn, Cfg.execAll, goesOn_append bat a b]
    cases h : (c.exec (bat n) cmd).1 <;> simp

theorem execAll_cons (bat : Nat → Byte) (c : Cfg) (cmd : Cmd) (n : Nat) (l : List (Cmd × Nat)) :
    c.execAll bat ((cmd, n) :: l) =
      if (c.exec (bat n) cmd).1 then
        (((c.exec (bat n) cmd).2.1.execAll bat l).1, (c.exec (bat n) cmd).2.2 ++ ((c.exec (bat n) cmd).2.1.execAll bat l).2)
      else (c.exec (bat n) cmd).2 := rfl

theorem execAll_one (bat : Nat → Byte) (c : Cfg) (cmd : Cmd) (n : Nat) :
    c.execAll bat [(cmd, n)] = (c.exec (bat n) cmd).2 := by
  simp only [Cfg.execAll]
  split <;> simp

/-- A data frame arrived whose counter the stack took over (its MIC may be wrong: the code looks at it later, see C30). Its FOpts field
contains exactly the complete commands `cmds` (each with the number of bytes behind it). -/
structure Carries (E : Env) (log : List Item) (it : Item) (s' : St) (o : Oracle) (l : Bytes) (f : DataFrame)
    (cmds : List (Cmd × Nat)) : Prop where
  hist : Hist E (log ++ [it]) s'
  data : (config E log).joining = false
  packet : outcome log it = .packet l
  radio : ∃ m, it.op = .event m o
  taken : verdict E (view E log) (config E log).down l = .no ∨ verdict E (view E log) (config E log).down l = .msgMic
  fields : parse l = some f
  cmds : commands f.fOpts.length f.fOpts = cmds

/-- The configuration after the first commands `a` of the frame. -/
def before (E : Env) (log : List Item) (o : Oracle) (l : Bytes) (f : DataFrame) (a : List (Cmd × Nat)) : Cfg :=
  (((config E log).arrived l f o.snr).execAll o.bat a).1

/-- None of these commands stops the processing. -/
def passes (E : Env) (log : List Item) (o : Oracle) (l : Bytes) (f : DataFrame) (a : List (Cmd × Nat)) : Prop :=
  ((config E log).arrived l f o.snr).goesOn o.bat a = true

/-- The uplink count of ADR after a frame. -/
def rxCnt (E : Env) (log : List Item) (l : Bytes) : Nat :=
  if verdict E (view E log) (config E log).down l = .no then 0 else (config E log).cnt

theorem Carries.all {o : Oracle} {l : Bytes} {f : DataFrame} {cmds : List (Cmd × Nat)} (h : Carries E log it s' o l f cmds) :
    macCalls it.ev = (((config E log).arrived l f o.snr).execAll o.bat cmds).2 ∧
    cfgOf s' = { before E log o l f cmds with joining := false, cnt := rxCnt E log l } := by
  obtain ⟨m, o', f', h1, h2, h3, h4⟩ := h.hist.executed h.packet h.data h.taken
  obtain ⟨m', h5⟩ := h.radio
  rw [h1] at h5
  cases h5
  rw [h.fields] at h2
  cases h2
  unfold Cfg.execBytes at h3 h4
  rw [h.cmds] at h3 h4
  exact ⟨h3, h4⟩

theorem Carries.split {o : Oracle} {l : Bytes} {f : DataFrame} {a b : List (Cmd × Nat)}
    (h : Carries E log it s' o l f (a ++ b)) (hp : passes E log o l f a) :
    macCalls it.ev = (((config E log).arrived l f o.snr).execAll o.bat a).2 ++ ((before E log o l f a).execAll o.bat b).2 ∧
    cfgOf s' = { ((before E log o l f a).execAll o.bat b).1 with joining := false, cnt := rxCnt E log l } := by
  obtain ⟨h1, h2⟩ := h.all
  unfold before at h2
  rw [execAll_append _ _ _ _ hp] at h1 h2
  exact ⟨h1, h2⟩

theorem Carries.last {o : Oracle} {l : Bytes} {f : DataFrame} {a : List (Cmd × Nat)} {cmd : Cmd} {n : Nat}
    (h : Carries E log it s' o l f (a ++ [(cmd, n)])) (hp : passes E log o l f a) :
    macCalls it.ev = (((config E log).arrived l f o.snr).execAll o.bat a).2 ++ ((before E log o l f a).exec (o.bat n) cmd).2.2 ∧
    cfgOf s' = { ((before E log o l f a).exec (o.bat n) cmd).2.1 with joining := false, cnt := rxCnt E log l } := by
  obtain ⟨h1, h2⟩ := h.split hp
  rw [execAll_one] at h1 h2
  exact ⟨h1, h2⟩

/-! ### The queue -/

theorem answer_queue (c : Cfg) (a : Bytes) :
    (c.answer a).2.queue = if c.queue.length + a.length ≤ 15 then c.queue ++ a else c.queue := by
  unfold Cfg.answer; split <;> rfl

theorem answer_goes (c : Cfg) (a : Bytes) : (c.answer a).1 = decide (c.queue.length + a.length ≤ 15) := by
  unfold Cfg.answer; split <;> simp_all

theorem linkAdr_queue (c : Cfg) (d p m k n : Nat) : (c.linkAdr d p m k n).2.queue = c.queue := by
  unfold Cfg.linkAdr; simp only; split <;> rfl

theorem rxParam_queue (c : Cfg) (d p m : Nat) : (c.rxParam d p m).2.queue = c.queue := by
  unfold Cfg.rxParam; simp only; split <;> rfl

theorem newChannel_queue (c : Cfg) (d p m k : Nat) : (c.newChannel d p m k).2.queue = c.queue := by
  unfold Cfg.newChannel Cfg.setChannel; simp only; split
  · rfl
  · split
    · simp only; split <;> rfl
    · rfl

/-- One command: its answer, if it has one, is appended entirely or not at all; only a missing answer stops the processing. -/
theorem exec_queue (c : Cfg) (b : Byte) (cmd : Cmd) :
    (cmd.answer = none → (c.exec b cmd).1 = true ∧ (c.exec b cmd).2.1.queue = c.queue) ∧
    (∀ i n, cmd.answer = some (i, n) → ∃ a : Bytes, a.head? = some i ∧ a.length = n ∧
      (c.exec b cmd).1 = decide (c.queue.length + n ≤ 15) ∧
      (c.exec b cmd).2.1.queue = if c.queue.length + n ≤ 15 then c.queue ++ a else c.queue) := by
  have key : ∀ (d : Cfg) (a : Bytes) (n : Nat), d.queue = c.queue → a.length = n →
      (d.answer a).1 = decide (c.queue.length + n ≤ 15) ∧
      (d.answer a).2.queue = if c.queue.length + n ≤ 15 then c.queue ++ a else c.queue := by
    intro d a n hq hl
    exact ⟨by rw [answer_goes, hq, hl], by rw [answer_queue, hq, hl]⟩
  cases cmd with
  | linkCheckAns => exact ⟨fun _ => ⟨rfl, rfl⟩, nofun⟩
  | txParamSetupReq => exact ⟨fun _ => ⟨rfl, rfl⟩, nofun⟩
  | dlChannelReq => exact ⟨fun _ => ⟨rfl, rfl⟩, nofun⟩
  | deviceTimeAns => exact ⟨fun _ => ⟨rfl, rfl⟩, nofun⟩
  | linkAdrReq d p m k n =>
    refine ⟨nofun, fun i x h => ?_⟩
    cases h
    exact ⟨[3, (c.linkAdr d p m k n).1], rfl, rfl, key _ _ 2 (linkAdr_queue c d p m k n) rfl⟩
  | dutyCycleReq =>
    refine ⟨nofun, fun i x h => ?_⟩
    cases h
    exact ⟨[4], rfl, rfl, key _ _ 1 (rfl) rfl⟩
  | rxParamSetupReq o d f =>
    refine ⟨nofun, fun i x h => ?_⟩
    cases h
    exact ⟨[5, (c.rxParam o d f).1], rfl, rfl, key _ _ 2 (rxParam_queue c o d f) rfl⟩
  | devStatusReq =>
    refine ⟨nofun, fun i x h => ?_⟩
    cases h
    exact ⟨[6, if (c.cbs.map (·.battery)).getD false then b else 255, BitVec.ofInt 8 (c.snr % 64)], rfl, rfl, key _ _ 3 (rfl) rfl⟩
  | newChannelReq o d f k =>
    refine ⟨nofun, fun i x h => ?_⟩
    cases h
    exact ⟨[7, (c.newChannel o d f k).1], rfl, rfl, key _ _ 2 (newChannel_queue c o d f k) rfl⟩
  | rxTimingSetupReq d =>
    refine ⟨nofun, fun i x h => ?_⟩
    cases h
    exact ⟨[8], rfl, rfl, key _ _ 1 (rfl) rfl⟩

/-- The queue after a frame: the answers of the commands executed, in order, up to the one that stopped the processing. -/
theorem execAll_queue (bat : Nat → Byte) : ∀ (l : List (Cmd × Nat)) (c : Cfg), ∃ (k : Nat) (as : List Bytes),
    Answers ((l.take k).map (·.1)) as ∧ (c.execAll bat l).1.queue = c.queue ++ as.flatten ∧
    (k = l.length ∨ ∃ cmd n i x, l[k]? = some (cmd, n) ∧ cmd.answer = some (i, x) ∧ 15 < (c.queue ++ as.flatten).length + x)
  | [], c => ⟨0, [], .nil, by simp [Cfg.execAll], .inl rfl⟩
  | (cmd, n) :: l, c => by
    obtain ⟨q1, q2⟩ := exec_queue c (bat n) cmd
    unfold Cfg.execAll
    cases ha : cmd.answer with
    | none =>
      obtain ⟨g1, g2⟩ := q1 ha
      obtain ⟨k, as, h1, h2, h3⟩ := execAll_queue bat l (c.exec (bat n) cmd).2.1
      refine ⟨k + 1, as, .skip ha h1, ?_, ?_⟩
      · simp only [g1, if_true, h2, g2]
      · rw [g2] at h3
        rcases h3 with h3 | h3
        · exact .inl (by simp [h3])
        · exact .inr h3
    | some x =>
      obtain ⟨i, m⟩ := x
      obtain ⟨a, hh, hl, g1, g2⟩ := q2 i m ha
      by_cases hfit : c.queue.length + m ≤ 15
      · rw [decide_eq_true hfit] at g1
        rw [if_pos hfit] at g2
        obtain ⟨k, as, h1, h2, h3⟩ := execAll_queue bat l (c.exec (bat n) cmd).2.1
        refine ⟨k + 1, a :: as, .cons ha ⟨hh, hl⟩ h1, ?_, ?_⟩
        · simp only [g1, if_true, h2, g2, List.flatten_cons, List.append_assoc]
        · rw [g2] at h3
          rcases h3 with h3 | h3
          · exact .inl (by simp [h3])
          · right
            obtain ⟨cmd', n', i', x', e1, e2, e3⟩ := h3
            refine ⟨cmd', n', i', x', e1, e2, ?_⟩
            rw [List.flatten_cons, ← List.append_assoc]; exact e3
      · rw [decide_eq_false hfit] at g1
        rw [if_neg hfit] at g2
        refine ⟨0, [], .nil, ?_, .inr ⟨cmd, n, i, m, rfl, ha, ?_⟩⟩
        · simp only [g1, Bool.false_eq_true, if_false, g2]; simp
        · simp; omega

/-- With room for all answers every command is executed. -/
theorem execAll_room (bat : Nat → Byte) : ∀ (l : List (Cmd × Nat)) (c : Cfg),
    c.queue.length + answerBytes (l.map (·.1)) ≤ 15 → c.goesOn bat l = true ∧
    ∃ as, Answers (l.map (·.1)) as ∧ (c.execAll bat l).1.queue = c.queue ++ as.flatten
  | [], c, _ => ⟨rfl, [], .nil, by simp [Cfg.execAll]⟩
  | (cmd, n) :: l, c, h => by
    obtain ⟨q1, q2⟩ := exec_queue c (bat n) cmd
    unfold Cfg.execAll Cfg.goesOn
    have hb : answerBytes (((cmd, n) :: l).map (·.1)) = (cmd.answer.map (·.2)).getD 0 + answerBytes (l.map (·.1)) := rfl
    rw [hb] at h
    cases ha : cmd.answer with
    | none =>
      rw [ha] at h
      obtain ⟨g1, g2⟩ := q1 ha
      obtain ⟨k, as, h1, h2⟩ := execAll_room bat l (c.exec (bat n) cmd).2.1 (by rw [g2]; simpa using h)
      refine ⟨by rw [g1, k]; rfl, as, .skip ha h1, ?_⟩
      simp only [g1, if_true, h2, g2]
    | some x =>
      obtain ⟨i, m⟩ := x
      obtain ⟨a, hh, hl, g1, g2⟩ := q2 i m ha
      rw [ha] at h
      simp only [Option.map_some, Option.getD_some] at h
      have hfit : c.queue.length + m ≤ 15 := by omega
      rw [decide_eq_true hfit] at g1
      rw [if_pos hfit] at g2
      obtain ⟨k, as, h1, h2⟩ := execAll_room bat l (c.exec (bat n) cmd).2.1 (by rw [g2]; simp; omega)
      refine ⟨by rw [g1, k]; rfl, a :: as, .cons ha ⟨hh, hl⟩ h1, ?_⟩
      simp only [g1, if_true, h2, g2, List.flatten_cons, List.append_assoc]

/-! ### Single commands -/

theorem exec_linkAdr (c : Cfg) (x : Byte) {dr pow mask cntl nb : Nat} {maskOk all : Bool}
    (hm : maskOk = true ↔ bit cntl 2 = false ∧ ∀ i < 16, bit mask i = true → c.freq i ≠ 0)
    (ha : all = true ↔ maskOk = true ∧ dr ≤ 5 ∧ pow ≤ 7) :
    c.exec x (.linkAdrReq dr pow mask cntl nb) = (decide (c.queue.length + 2 ≤ 15),
      { c with
        dr := if all then dr else c.dr
        pow := if all then pow else c.pow
        nb := if all then (if nb = 0 then c.defNb else nb) else c.nb
        on := if all then (fun i => decide (i < 16) && bit mask i) else c.on
        queue := if c.queue.length + 2 ≤ 15 then c.queue ++ [3, bits maskOk (dr ≤ 5) (pow ≤ 7)] else c.queue }, []) := by
  have e1 : c.maskOk mask cntl = maskOk := by
    rw [Bool.eq_iff_iff, hm]
    unfold Cfg.maskOk
    simp only [Bool.and_eq_true, Bool.not_eq_true', List.all_eq_true, List.mem_range, Bool.or_eq_true, bne_iff_ne]
    constructor
    · rintro ⟨h1, h2⟩
      refine ⟨h1, fun i hi hb => ?_⟩
      rcases h2 i hi with h | h
      · rw [h] at hb; cases hb
      · exact h
    · rintro ⟨h1, h2⟩
      refine ⟨h1, fun i hi => ?_⟩
      cases hb : bit mask i with
      | false => exact .inl rfl
      | true => exact .inr (h2 i hi hb)
  have e2 : decide (dr < 6) = decide (dr ≤ 5) := by rw [decide_eq_decide]; omega
  have e3 : decide (pow < 8) = decide (pow ≤ 7) := by rw [decide_eq_decide]; omega
  have e4 : (maskOk && decide (dr ≤ 5) && decide (pow ≤ 7)) = all := by
    rw [Bool.eq_iff_iff, ha]; simp [and_assoc]
  have e5 : (fun i => if i < 16 then bit mask i else false) = fun i => decide (i < 16) && bit mask i := by
    funext i; by_cases h : i < 16 <;> simp [h]
  unfold Cfg.exec Cfg.linkAdr Cfg.answer
  simp only [e1, e2, e3, e4, e5]
  cases all <;> by_cases hf : c.queue.length + 2 ≤ 15 <;> simp [hf]

theorem exec_rxParam (c : Cfg) (x : Byte) {off dr freq : Nat} {all : Bool}
    (ha : all = true ↔ (860000000 ≤ freq ∧ freq ≤ 870000000) ∧ dr ≤ 5 ∧ off ≤ 5) :
    c.exec x (.rxParamSetupReq off dr freq) = (decide (c.queue.length + 2 ≤ 15),
      { c with
        off := if all then off else c.off
        rx2Dr := if all then dr else c.rx2Dr
        rx2Freq := if all then freq else c.rx2Freq
        queue := if c.queue.length + 2 ≤ 15 then
          c.queue ++ [5, bits (860000000 ≤ freq ∧ freq ≤ 870000000) (dr ≤ 5) (off ≤ 5)] else c.queue }, []) := by
  have e1 : inBand freq = decide (860000000 ≤ freq ∧ freq ≤ 870000000) := by
    unfold inBand; rw [Bool.decide_and]
  have e2 : decide (dr < 6) = decide (dr ≤ 5) := by rw [decide_eq_decide]; omega
  have e3 : decide (off < 6) = decide (off ≤ 5) := by rw [decide_eq_decide]; omega
  have e4 : (decide (860000000 ≤ freq ∧ freq ≤ 870000000) && decide (dr ≤ 5) && decide (off ≤ 5)) = all := by
    rw [Bool.eq_iff_iff, ha]; simp [and_assoc]
  unfold Cfg.exec Cfg.rxParam Cfg.answer
  simp only [e1, e2, e3, e4]
  cases all <;> by_cases hf : c.queue.length + 2 ≤ 15 <;> simp [hf]

theorem exec_newChannel (c : Cfg) (x : Byte) {idx freq hi lo : Nat} {all : Bool}
    (ha : all = true ↔ idx < 16 ∧ (860000000 ≤ freq ∧ freq ≤ 870000000) ∧ hi = 5 ∧ lo = 0) :
    ∃ st : Byte, (st = 3 ↔ all = true) ∧
      (idx < 16 → st = bits (860000000 ≤ freq ∧ freq ≤ 870000000) (hi = 5 ∧ lo = 0) false) ∧
      c.exec x (.newChannelReq idx freq hi lo) = (decide (c.queue.length + 2 ≤ 15),
        { c with
          freq := if all then upd c.freq idx freq else c.freq
          on := if all then upd c.on idx true else c.on
          queue := if c.queue.length + 2 ≤ 15 then c.queue ++ [7, st] else c.queue }, []) := by
  have e1 : inBand freq = decide (860000000 ≤ freq ∧ freq ≤ 870000000) := by
    unfold inBand; rw [Bool.decide_and]
  have hb : ∀ p q : Bool, bits p q false = 3 ↔ p = true ∧ q = true := by decide
  refine ⟨(c.newChannel idx freq hi lo).1, ?_, ?_, ?_⟩
  · unfold Cfg.newChannel
    simp only [e1]
    split
    · next h =>
      rw [ha]
      constructor
      · intro h0; exact absurd (show (0 : Byte) = 3 from h0) (by decide)
      · intro h0; omega
    · next h =>
      rw [hb, ha]
      simp only [decide_eq_true_eq] at h ⊢
      constructor
      · rintro ⟨h1, h2⟩; exact ⟨by omega, h1, h2⟩
      · rintro ⟨-, h1, h2⟩; exact ⟨h1, h2⟩
  · intro h
    unfold Cfg.newChannel
    simp only [e1]
    rw [if_neg (by omega)]
  · have e2 : (c.newChannel idx freq hi lo).2 =
        { c with freq := if all then upd c.freq idx freq else c.freq, on := if all then upd c.on idx true else c.on } := by
      unfold Cfg.newChannel Cfg.setChannel
      simp only [e1, decide_eq_true_eq]
      cases all with
      | true =>
        obtain ⟨h1, h2, h3⟩ := ha.mp rfl
        rw [if_neg (by omega)]
        simp only
        rw [if_pos h3, if_pos ⟨h1, h2⟩]
        rfl
      | false =>
        have : ¬ (idx < 16 ∧ (860000000 ≤ freq ∧ freq ≤ 870000000) ∧ hi = 5 ∧ lo = 0) := by rw [← ha]; simp
        split
        · rfl
        · simp only
          by_cases h3 : hi = 5 ∧ lo = 0
          · rw [if_pos h3, if_neg (by omega)]; rfl
          · rw [if_neg h3]; rfl
    unfold Cfg.exec
    simp only [e2]
    generalize (c.newChannel idx freq hi lo).1 = st
    unfold Cfg.answer
    cases all <;> by_cases hf : c.queue.length + 2 ≤ 15 <;> simp [hf]

theorem setChannel_audible {c : Cfg} (i x : Nat) (h : c.audible) : (c.setChannel i x).audible := by
  obtain ⟨k, hk, h⟩ := h
  unfold Cfg.setChannel
  split
  · refine ⟨k, hk, ?_⟩
    show (if k = i then true else c.on k) = true
    split
    · rfl
    · exact h
  · exact ⟨k, hk, h⟩

theorem answer_audible {c : Cfg} (x : Bytes) (h : c.audible) : (c.answer x).2.audible := by
  unfold Cfg.answer; split <;> exact h

theorem exec_audible {c : Cfg} (x : Byte) {cmd : Cmd} (h : c.audible)
    (hm : ∀ dr pow mask cntl nb, cmd = .linkAdrReq dr pow mask cntl nb → ∃ i < 16, bit mask i = true) :
    (c.exec x cmd).2.1.audible := by
  cases cmd with
  | linkAdrReq dr pow mask cntl nb =>
    refine answer_audible _ ?_
    unfold Cfg.linkAdr
    simp only
    split
    · obtain ⟨i, hi, hb⟩ := hm dr pow mask cntl nb rfl
      refine ⟨i, hi, ?_⟩
      simp only [hi, if_true, hb]
    · exact h
  | rxParamSetupReq off dr fr =>
    refine answer_audible _ ?_
    unfold Cfg.rxParam
    simp only
    split <;> exact h
  | newChannelReq idx fr hi lo =>
    refine answer_audible _ ?_
    unfold Cfg.newChannel
    simp only
    split
    · exact h
    · simp only
      split
      · exact setChannel_audible _ _ h
      · exact h
  | dutyCycleReq => exact answer_audible _ h
  | devStatusReq => exact answer_audible _ h
  | rxTimingSetupReq d => exact answer_audible _ h
  | linkCheckAns => exact h
  | txParamSetupReq => exact h
  | dlChannelReq => exact h
  | deviceTimeAns => exact h

theorem execAll_audible (bat : Nat → Byte) : ∀ (cs : List (Cmd × Nat)) (c : Cfg), c.audible →
    (∀ dr pow mask cntl nb k, (Cmd.linkAdrReq dr pow mask cntl nb, k) ∈ cs → ∃ i < 16, bit mask i = true) →
    (c.execAll bat cs).1.audible
  | [], _, h, _ => h
  | (cmd, k) :: cs, c, h, hm => by
    have h1 := exec_audible (bat k) (cmd := cmd) h fun dr pow mask cntl nb e => hm dr pow mask cntl nb k (by rw [e]; exact List.mem_cons_self)
    rw [execAll_cons]
    split
    · exact execAll_audible bat cs _ h1 fun dr pow mask cntl nb k hk => hm dr pow mask cntl nb k (List.mem_cons_of_mem _ hk)
    · exact h1

end Uwan
