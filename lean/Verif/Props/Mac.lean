import Verif.Lemmas.Commands
import Verif.Props.Downlink

/-!
# MAC commands from the network (C37, C47-C56)

`Carries E log it s' o l f cmds`: in the last operation `it` a data frame with the bytes `l` and fields `f` arrived in a data
exchange, with a counter and address the stack takes; its FOpts field holds the complete commands `cmds`, each with the number of
bytes behind it. Commands before the one looked at are `a`, those behind it `b`. `before E log o l f a` is the
configuration after `a`, and `passes E log o l f a` says that all answers to `a` fitted into the queue, so that the processing reached
the command.
-/

namespace Uwan
open Spec

variable {E : Env} {log : List Item} {it : Item} {s' : St} {o : Oracle} {l : Bytes} {f : DataFrame} {a b : List (Cmd × Nat)} {n : Nat}

/-- The configuration after the command is `c`, it made the calls `calls`; if its answer fitted, the rest `b` of the commands is
executed from there, otherwise the processing ends. The resulting configuration is that of the stack's state. -/
def Onward (E : Env) (log : List Item) (it : Item) (s' : St) (o : Oracle) (l : Bytes) (f : DataFrame) (a b : List (Cmd × Nat))
    (c : Cfg) (calls : List Ev) (fits : Bool) : Prop :=
  cfgOf s' = { (if fits then (c.execAll o.bat b).1 else c) with joining := false, cnt := rxCnt E log l } ∧
  macCalls it.ev = (((config E log).arrived l f o.snr).execAll o.bat a).2 ++ calls ++ (if fits then (c.execAll o.bat b).2 else [])

theorem Carries.onward {cmd : Cmd} (h : Carries E log it s' o l f (a ++ (cmd, n) :: b)) (hp : passes E log o l f a) :
    Onward E log it s' o l f a b ((before E log o l f a).exec (o.bat n) cmd).2.1 ((before E log o l f a).exec (o.bat n) cmd).2.2
      ((before E log o l f a).exec (o.bat n) cmd).1 := by
  obtain ⟨h1, h2⟩ := h.split hp
  unfold Onward
  rw [h1, h2, execAll_cons]
  cases ((before E log o l f a).exec (o.bat n) cmd).1 with
  | false => exact ⟨rfl, by simp⟩
  | true => exact ⟨rfl, by simp⟩

/-- A frame with the commands `cs` for the demonstration device. -/
def cmdFrame (cs : Bytes) : Bytes := dlFrame ⟨false, 0, 0, cs, none⟩ 9

/-- The demonstration: commands `cs` arrive in the first window. -/
theorem cmdDemo (ops : List Op) (cs : Bytes) (cmds : List (Cmd × Nat)) (f : DataFrame) (hfine : Demo.fine ops = true)
    (hs : (match step Tests.xorEnv (Demo.final ops) (.event 2 (Tests.rxOf (cmdFrame cs))) with | .ok _ => true | .error _ => false) = true)
    (h1 : (config Tests.xorEnv (Demo.items ops)).joining = false)
    (h2 : outcome (Demo.items ops) (Demo.nextItem ops (.event 2 (Tests.rxOf (cmdFrame cs)))) = .packet (cmdFrame cs))
    (h3 : verdict Tests.xorEnv (view Tests.xorEnv (Demo.items ops)) (config Tests.xorEnv (Demo.items ops)).down (cmdFrame cs) = .no)
    (h4 : parse (cmdFrame cs) = some f) (h5 : commands f.fOpts.length f.fOpts = cmds) :
    Carries Tests.xorEnv (Demo.items ops) (Demo.nextItem ops (.event 2 (Tests.rxOf (cmdFrame cs))))
      (Demo.nextItem ops (.event 2 (Tests.rxOf (cmdFrame cs)))).post (Tests.rxOf (cmdFrame cs)) (cmdFrame cs) f cmds := by
  obtain ⟨h, ho⟩ := Demo.next (op := .event 2 (Tests.rxOf (cmdFrame cs))) hfine trivial hs
  exact ⟨h, h1, h2, ⟨2, ho⟩, .inl h3, h4, h5⟩

/-! ### C47 -/

/-- C47: the bytes read as one command are exactly a known identifier and its fixed payload. -/
theorem C47_decode (l : Bytes) :
    match l with
    | [] => decode l = none
    | cid :: r =>
      match cmdSize cid with
      | none => decode l = none
      | some k => if k ≤ r.length then ∃ c, decode l = some (c, r.drop k) else decode l = none := by
  cases l with
  | nil => rfl
  | cons cid r =>
    simp only
    by_cases hu : cid.toNat ∈ [2, 3, 4, 5, 6, 7, 8, 9, 10, 13]
    · simp only [List.mem_cons, List.not_mem_nil, or_false] at hu
      rcases hu with h | h | h | h | h | h | h | h | h | h <;> simp only [cmdSize, h] <;>
        rcases r with _ | ⟨x0, _ | ⟨x1, _ | ⟨x2, _ | ⟨x3, _ | ⟨x4, r⟩⟩⟩⟩⟩ <;> simp [decode, h]
    · have e : cmdSize cid = none := by
        unfold cmdSize; split <;> first | rfl | (next h => rw [h] at hu; exact absurd (by decide) hu)
      rw [e]
      simp only
      unfold decode
      simp only
      split <;> first | rfl | (next h => rw [h] at hu; exact absurd (by decide) hu)

/-- C47: the commands executed are those read one after the other from the FOpts field, until what remains is no complete known
command; the resulting configuration and the calls into the MAC handlers are those of executing them in order, up to the first one
whose answer does not fit. That the processing ends and reads nothing outside the field is `C29_safe`. -/
theorem C47_prefix (h : Hist E (log ++ [it]) s') (l : Bytes) (ho : outcome log it = .packet l)
    (hj : (config E log).joining = false)
    (ht : verdict E (view E log) (config E log).down l = .no ∨ verdict E (view E log) (config E log).down l = .msgMic) :
    ∃ m o f r, ∃ cs : List (Cmd × Nat), it.op = .event m o ∧ parse l = some f ∧
      Parses f.fOpts (cs.map (·.1)) r ∧ decode r = none ∧
      macCalls it.ev = (((config E log).arrived l f o.snr).execAll o.bat cs).2 ∧
      cfgOf s' = { (((config E log).arrived l f o.snr).execAll o.bat cs).1 with joining := false, cnt := rxCnt E log l } := by
  obtain ⟨m, o, f, h1, h2, h3, h4⟩ := h.executed ho hj ht
  obtain ⟨r, h5, h6⟩ := commands_parse f.fOpts.length f.fOpts (Nat.le_refl _)
  exact ⟨m, o, f, r, _, h1, h2, h5, h6, h3, h4⟩

/-- The reading is unique. -/
theorem C47_unique {l : Bytes} {cs cs' : List Cmd} {r r' : Bytes} (h : Parses l cs r) (h' : Parses l cs' r')
    (hr : decode r = none) (hr' : decode r' = none) : cs = cs' ∧ r = r' := Parses.unique h h' hr hr'

-- RXTimingSetupReq 3, LinkADRReq refused, an unknown identifier, RXTimingSetupReq 9: the last one is not executed.
example : ∃ log it s' l, Hist Tests.xorEnv (log ++ [it]) s' ∧ outcome log it = .packet l ∧ (config Tests.xorEnv log).joining = false ∧
    verdict Tests.xorEnv (view Tests.xorEnv log) (config Tests.xorEnv log).down l = .no ∧
    s'.defaultRx1Delay = 3000 ∧ s'.mac.queue = [8, 3, 3] := by
  obtain ⟨h, ho⟩ := Demo.next (op := .event 2 (Tests.rxOf (cmdFrame [8, 3, 3, 0x58, 1, 0, 1, 0x80, 8, 9]))) dlFine (by decide +kernel) (by decide +kernel)
  exact ⟨_, _, _, cmdFrame [8, 3, 3, 0x58, 1, 0, 1, 0x80, 8, 9], h, by decide +kernel, by decide +kernel, by decide +kernel, by decide +kernel, by decide +kernel⟩

/-! ### C48-C50: LinkADRReq -/

/-- C48: a LinkADRReq changes data rate, power, repetitions and channel mask together when all three are acceptable, and nothing
otherwise; the answer says which of them were, bit 0 the mask, bit 1 the data rate, bit 2 the power. (`bit cntl 2` is how the code
looks at ChMaskCntl, see C49.) -/
theorem C48_link_adr {dr pow mask cntl nb : Nat} (h : Carries E log it s' o l f (a ++ (.linkAdrReq dr pow mask cntl nb, n) :: b))
    (hp : passes E log o l f a) {c : Cfg} (hc : c = before E log o l f a) {maskOk all : Bool}
    (hm : maskOk = true ↔ bit cntl 2 = false ∧ ∀ i < 16, bit mask i = true → c.freq i ≠ 0)
    (ha : all = true ↔ maskOk = true ∧ dr ≤ 5 ∧ pow ≤ 7) :
    Onward E log it s' o l f a b
      { c with
        dr := if all then dr else c.dr
        pow := if all then pow else c.pow
        nb := if all then (if nb = 0 then c.defNb else nb) else c.nb
        on := if all then (fun i => decide (i < 16) && bit mask i) else c.on
        queue := if c.queue.length + 2 ≤ 15 then c.queue ++ [3, bits maskOk (dr ≤ 5) (pow ≤ 7)] else c.queue }
      [] (c.queue.length + 2 ≤ 15) := by
  have := h.onward hp
  rw [← hc, exec_linkAdr c _ hm ha] at this
  exact this

/-- The bits of an answer. -/
theorem C48_bits (x y z : Bool) (i : Nat) : bit (bits x y z).toNat i = (i = 0 && x || i = 1 && y || i = 2 && z) := by
  match i with
  | 0 => cases x <;> cases y <;> cases z <;> decide
  | 1 => cases x <;> cases y <;> cases z <;> decide
  | 2 => cases x <;> cases y <;> cases z <;> decide
  | i + 3 =>
    have h : (bits x y z).toNat < 8 := by cases x <;> cases y <;> cases z <;> decide
    have : (bits x y z).toNat / 2 ^ (i + 3) = 0 := by
      apply Nat.div_eq_of_lt
      have : 2 ^ (i + 3) = 2 ^ i * 8 := by rw [Nat.pow_add]
      have := Nat.two_pow_pos i
      omega
    unfold bit
    rw [this]
    simp

/-- The demonstration: a DevStatusReq, a LinkADRReq to DR3, power 2, channels 0 and 2, two repetitions, an RXTimingSetupReq. -/
theorem adrDemo : ∃ f, Carries Tests.xorEnv (Demo.items dlOps)
    (Demo.nextItem dlOps (.event 2 (Tests.rxOf (cmdFrame [6, 3, 0x32, 5, 0, 2, 8, 4]))))
    (Demo.nextItem dlOps (.event 2 (Tests.rxOf (cmdFrame [6, 3, 0x32, 5, 0, 2, 8, 4])))).post
    (Tests.rxOf (cmdFrame [6, 3, 0x32, 5, 0, 2, 8, 4])) (cmdFrame [6, 3, 0x32, 5, 0, 2, 8, 4]) f
    ([(.devStatusReq, 7)] ++ (.linkAdrReq 3 2 5 0 2, 2) :: [(.rxTimingSetupReq 4, 0)]) :=
  ⟨_, cmdDemo dlOps _ _ _ dlFine (by decide +kernel) (by decide +kernel) (by decide +kernel) (by decide +kernel) rfl (by decide +kernel)⟩

example : ∃ log it s' o l f a b n, Carries Tests.xorEnv log it s' o l f (a ++ (.linkAdrReq 3 2 5 0 2, n) :: b) ∧
    passes Tests.xorEnv log o l f a ∧ bit 0 2 = false ∧ (∀ i < 16, bit 5 i = true → (before Tests.xorEnv log o l f a).freq i ≠ 0) ∧
    s'.session.dr = 3 ∧ s'.mac.queue = [6, 255, 59, 3, 7, 8] := by
  obtain ⟨f, h⟩ := adrDemo
  have hf := h.fields
  refine ⟨_, _, _, _, _, f, _, _, _, h, ?_, by decide, ?_, by decide +kernel, by decide +kernel⟩
  · unfold passes Cfg.goesOn Cfg.goesOn
    cases hf; decide +kernel
  · cases hf; decide +kernel

/-- C49, what holds: with ChMaskCntl 0 the mask is applied to channels 0..15 (all three settings acceptable), and 4, 5, 7 are
refused without effect. Missing: ChMaskCntl 6 does not enable all channels but is refused too (`C49_cntl6`), and 1, 2, 3 are not
refused but treated like 0 (`C49_cntl1`). -/
theorem C49_mask_partial {dr pow mask nb : Nat} (h : Carries E log it s' o l f (a ++ (.linkAdrReq dr pow mask 0 nb, n) :: b))
    (hp : passes E log o l f a) {c : Cfg} (hc : c = before E log o l f a) (hd : dr ≤ 5) (hw : pow ≤ 7)
    (hm : ∀ i < 16, bit mask i = true → c.freq i ≠ 0) :
    Onward E log it s' o l f a b
      { c with
        dr := dr, pow := pow, nb := if nb = 0 then c.defNb else nb, on := fun i => decide (i < 16) && bit mask i
        queue := if c.queue.length + 2 ≤ 15 then c.queue ++ [3, 7] else c.queue }
      [] (c.queue.length + 2 ≤ 15) := by
  have := C48_link_adr h hp hc (maskOk := true) (all := true) ⟨fun _ => ⟨by decide, hm⟩, fun _ => rfl⟩ ⟨fun _ => ⟨rfl, hd, hw⟩, fun _ => rfl⟩
  simp only [if_true] at this
  rw [show bits true (decide (dr ≤ 5)) (decide (pow ≤ 7)) = 7 by simp only [hd, hw, decide_true]; decide] at this
  exact this

/-- see `C49_mask_partial` -/
theorem C49_refused_partial {dr pow mask cntl nb : Nat} (h : Carries E log it s' o l f (a ++ (.linkAdrReq dr pow mask cntl nb, n) :: b))
    (hp : passes E log o l f a) {c : Cfg} (hc : c = before E log o l f a) (hx : cntl = 4 ∨ cntl = 5 ∨ cntl = 7) :
    Onward E log it s' o l f a b
      { c with queue := if c.queue.length + 2 ≤ 15 then c.queue ++ [3, bits false (dr ≤ 5) (pow ≤ 7)] else c.queue }
      [] (c.queue.length + 2 ≤ 15) := by
  have hb : bit cntl 2 = true := by rcases hx with rfl | rfl | rfl <;> decide
  have := C48_link_adr h hp hc (maskOk := false) (all := false) ⟨nofun, fun h => by rw [hb] at h; cases h.1⟩ ⟨nofun, fun h => by cases h.1⟩
  simpa using this

example : ∃ log it s' o l f, Carries Tests.xorEnv log it s' o l f ([] ++ (.linkAdrReq 3 2 1 7 2, 0) :: []) ∧
    passes Tests.xorEnv log o l f [] ∧ s'.mac.queue = [3, 6] ∧ s'.session.dr = 0 :=
  ⟨_, _, _, _, _, _, cmdDemo dlOps [3, 0x32, 1, 0, 0x72] _ _ dlFine (by decide +kernel) (by decide +kernel) (by decide +kernel) (by decide +kernel) rfl (by decide +kernel),
    rfl, by decide +kernel, by decide +kernel⟩

/-- C49 fails for ChMaskCntl 6, "all channels on": with channel 0 switched off, the request is refused (bit 0 of the answer is 0)
and the channel stays off. -/
theorem C49_cntl6 : ∃ log it s' o l f, Carries Tests.xorEnv log it s' o l f [(.linkAdrReq 3 2 0 6 2, 0)] ∧
    chFreq s'.chan 0 = 868100000 ∧ chOn s'.chan 0 = false ∧ s'.mac.queue = [3, 6] :=
  ⟨_, _, _, _, _, _, cmdDemo (dlOps ++ [.enableChannel 0 false]) [3, 0x32, 0, 0, 0x62] _ _ (by decide +kernel) (by decide +kernel) (by decide +kernel) (by decide +kernel) (by decide +kernel) rfl
    (by decide +kernel), by decide +kernel, by decide +kernel, by decide +kernel⟩

/-- C49 fails for ChMaskCntl 1 (not defined in this region): it is applied, channels 0 and 1 go off. -/
theorem C49_cntl1 : ∃ log it s' o l f, Carries Tests.xorEnv log it s' o l f [(.linkAdrReq 3 2 4 1 2, 0)] ∧
    (chOn it.pre.chan 0, chOn it.pre.chan 1, chOn it.pre.chan 2) = (true, true, true) ∧
    (chOn s'.chan 0, chOn s'.chan 1, chOn s'.chan 2) = (false, false, true) ∧ s'.session.dr = 3 ∧ s'.mac.queue = [3, 7] :=
  ⟨_, _, _, _, _, _, cmdDemo dlOps [3, 0x32, 4, 0, 0x12] _ _ dlFine (by decide +kernel) (by decide +kernel) (by decide +kernel) (by decide +kernel) rfl
    (by decide +kernel), by decide +kernel, by decide +kernel, by decide +kernel, by decide +kernel⟩

/-- C50, what holds: the commands of a frame leave a channel enabled, if one was and no LinkADRReq among them has an
empty mask. Missing: an empty mask is accepted and switches all channels off (`C50_mute`). -/
theorem C50_audible_partial {cs : List (Cmd × Nat)} (h : Carries E log it s' o l f cs) (hp : ∃ i < 16, chOn it.pre.chan i = true)
    (hm : ∀ dr pow mask cntl nb k, (Cmd.linkAdrReq dr pow mask cntl nb, k) ∈ cs → ∃ i < 16, bit mask i = true) :
    ∃ i < 16, chOn s'.chan i = true := by
  have h2 := h.all.2
  obtain ⟨s, hs, hpre, -⟩ := h.hist.last
  have hc := config_hist hs
  have h0 : ((config E log).arrived l f o.snr).audible := by
    obtain ⟨i, hi, hp⟩ := hp
    refine ⟨i, hi, ?_⟩
    show ((config E log).noteAck l).on i = true
    rw [hpre] at hp
    unfold Cfg.noteAck
    rw [← hc]
    split <;> exact hp
  obtain ⟨i, hi, h3⟩ := execAll_audible o.bat cs _ h0 hm
  refine ⟨i, hi, ?_⟩
  show (cfgOf s').on i = true
  rw [h2]
  exact h3

example : ∃ log it s' o l f cs, Carries Tests.xorEnv log it s' o l f cs ∧ (∃ i < 16, chOn it.pre.chan i = true) ∧
    cs.map (·.1) = [.devStatusReq, .linkAdrReq 3 2 5 0 2, .rxTimingSetupReq 4] := by
  obtain ⟨f, h⟩ := adrDemo
  exact ⟨_, _, _, _, _, f, _, h, ⟨0, by decide, by decide +kernel⟩, rfl⟩

/-- C50 fails: an accepted LinkADRReq with an empty mask switches all channels off, and the next send is refused. -/
theorem C50_mute : ∃ log it s' o l f, Carries Tests.xorEnv log it s' o l f [(.linkAdrReq 3 2 0 0 2, 0)] ∧
    (List.range 16).any (chOn it.pre.chan) = true ∧ s'.mac.queue = [3, 7] ∧ (List.range 16).any (chOn s'.chan) = false ∧
    ∀ port pld c rnd s2 ev, step Tests.xorEnv s' (.send port pld c rnd) ≠ .ok (.err .no, s2, ev) := by
  have h := cmdDemo dlOps [3, 0x32, 0, 0, 2] _ _ dlFine (by decide +kernel) (by decide +kernel) (by decide +kernel) (by decide +kernel) rfl rfl
  refine ⟨_, _, _, _, _, _, h, by decide +kernel, by decide +kernel, by decide +kernel, ?_⟩
  intro port pld c rnd s2 ev hs
  obtain ⟨e, he, hc⟩ := step_send h.hist.inv hs
  cases he
  cases hc with
  | sent f d hph hg hpk =>
    obtain ⟨i, hi, hset, -⟩ := hpk
    have : (List.range 16).any (chOn (Demo.nextItem dlOps (.event 2 (Tests.rxOf (cmdFrame [3, 0x32, 0, 0, 2])))).post.chan) = false := by
      decide +kernel
    rw [List.any_eq_false] at this
    refine this i (List.mem_range.mpr hi) ?_
    unfold chOn
    rw [hset, decide_eq_true hi]
    rfl

/-! ### C51-C53: receive parameters and channels -/

/-- C51: an RXParamSetupReq changes RX1 offset, RX2 data rate and RX2 frequency together when all three are acceptable and nothing
otherwise; the answer says which were, bit 0 the frequency, bit 1 the data rate, bit 2 the offset. -/
theorem C51_rx_param {off dr freq : Nat} (h : Carries E log it s' o l f (a ++ (.rxParamSetupReq off dr freq, n) :: b))
    (hp : passes E log o l f a) {c : Cfg} (hc : c = before E log o l f a) {all : Bool}
    (ha : all = true ↔ (860000000 ≤ freq ∧ freq ≤ 870000000) ∧ dr ≤ 5 ∧ off ≤ 5) :
    Onward E log it s' o l f a b
      { c with
        off := if all then off else c.off
        rx2Dr := if all then dr else c.rx2Dr
        rx2Freq := if all then freq else c.rx2Freq
        queue := if c.queue.length + 2 ≤ 15 then
          c.queue ++ [5, bits (860000000 ≤ freq ∧ freq ≤ 870000000) (dr ≤ 5) (off ≤ 5)] else c.queue }
      [] (c.queue.length + 2 ≤ 15) := by
  have := h.onward hp
  rw [← hc, exec_rxParam c _ ha] at this
  exact this

-- Accepted (offset 2, DR3, 869.525 MHz), and refused because of the frequency.
example : ∃ log it s' o l f, Carries Tests.xorEnv log it s' o l f ([] ++ (.rxParamSetupReq 2 3 869525000, 5) :: [(.rxParamSetupReq 1 1 100, 0)]) ∧
    passes Tests.xorEnv log o l f [] ∧ s'.mac.queue = [5, 7, 5, 6] ∧ (s'.rx1Offset, s'.rx2Dr, s'.rx2Freq) = (2, 3, 869525000) :=
  ⟨_, _, _, _, _, _, cmdDemo dlOps [5, 0x23, 0xd2, 0xad, 0x84, 5, 0x11, 1, 0, 0] _ _ dlFine (by decide +kernel) (by decide +kernel)
    (by decide +kernel) (by decide +kernel) rfl (by decide +kernel), rfl, by decide +kernel, by decide +kernel⟩

/-- C52: a NewChannelReq defines and enables the channel when index, frequency and data-rate range are acceptable, and changes nothing
otherwise; the answer has both bits set exactly in the first case. -/
theorem C52_new_channel {idx freq hi lo : Nat} (h : Carries E log it s' o l f (a ++ (.newChannelReq idx freq hi lo, n) :: b))
    (hp : passes E log o l f a) {c : Cfg} (hc : c = before E log o l f a) {all : Bool}
    (ha : all = true ↔ idx < 16 ∧ (860000000 ≤ freq ∧ freq ≤ 870000000) ∧ hi = 5 ∧ lo = 0) :
    ∃ st : Byte, (st = 3 ↔ all = true) ∧
      (idx < 16 → st = bits (860000000 ≤ freq ∧ freq ≤ 870000000) (hi = 5 ∧ lo = 0) false) ∧
      Onward E log it s' o l f a b
        { c with
          freq := if all then upd c.freq idx freq else c.freq
          on := if all then upd c.on idx true else c.on
          queue := if c.queue.length + 2 ≤ 15 then c.queue ++ [7, st] else c.queue }
        [] (c.queue.length + 2 ≤ 15) := by
  obtain ⟨st, h1, h2, h3⟩ := exec_newChannel c (o.bat n) ha
  have := h.onward hp
  rw [← hc, h3] at this
  exact ⟨st, h1, h2, this⟩

-- Channel 4 at 867.1 MHz is accepted, index 16 is not.
example : ∃ log it s' o l f, Carries Tests.xorEnv log it s' o l f ([] ++ (.newChannelReq 4 867100000 5 0, 6) :: [(.newChannelReq 16 867100000 5 0, 0)]) ∧
    passes Tests.xorEnv log o l f [] ∧ s'.mac.queue = [7, 3, 7, 0] ∧ (chFreq s'.chan 4, chOn s'.chan 4) = (867100000, true) :=
  ⟨_, _, _, _, _, _, cmdDemo dlOps [7, 4, 0x18, 0x4f, 0x84, 0x50, 7, 16, 0x18, 0x4f, 0x84, 0x50] _ _ dlFine (by decide +kernel) (by decide +kernel)
    (by decide +kernel) (by decide +kernel) rfl (by decide +kernel), rfl, by decide +kernel, by decide +kernel⟩

/-- C53: an RXTimingSetupReq sets the receive delay, 1 second for 0, and is acknowledged. The windows of following uplinks open
after this delay and one second later (`C11_timers` and `Cfg.sent`). -/
theorem C53_rx_timing {d : Nat} (h : Carries E log it s' o l f (a ++ (.rxTimingSetupReq d, n) :: b)) (hp : passes E log o l f a)
    {c : Cfg} (hc : c = before E log o l f a) :
    Onward E log it s' o l f a b
      { c with
        delay := if d = 0 then 1 else d
        queue := if c.queue.length + 1 ≤ 15 then c.queue ++ [8] else c.queue }
      [] (c.queue.length + 1 ≤ 15) := by
  have := h.onward hp
  rw [← hc] at this
  have e : c.exec (o.bat n) (.rxTimingSetupReq d) = (decide (c.queue.length + 1 ≤ 15),
      { c with delay := if d = 0 then 1 else d, queue := if c.queue.length + 1 ≤ 15 then c.queue ++ [8] else c.queue }, []) := by
    have hm : max 1 d = if d = 0 then 1 else d := by split <;> omega
    unfold Cfg.exec Cfg.answer
    simp only [hm]
    by_cases hf : c.queue.length + 1 ≤ 15 <;> simp [hf]
  rw [e] at this
  exact this

/-- C53: in the stack's state, for a request that is the last command; always 1 to 15 seconds. -/
theorem C53_delay {d : Nat} (h : Carries E log it s' o l f (a ++ [(.rxTimingSetupReq d, n)])) (hp : passes E log o l f a) :
    s'.defaultRx1Delay.toNat = 1000 * (if d = 0 then 1 else d) ∧
    1000 ≤ s'.defaultRx1Delay.toNat ∧ s'.defaultRx1Delay.toNat ≤ 15000 := by
  have h1 := (C53_rx_timing h hp rfl).1
  have h2 : (cfgOf s').delay = if d = 0 then 1 else d := by
    rw [h1]
    simp only [Cfg.execAll]
    split <;> rfl
  obtain ⟨k, k1, k2, hk⟩ := h.hist.inv.delay
  have h3 : s'.defaultRx1Delay.toNat = k * 1000 := by rw [hk, BitVec.toNat_ofNat, Nat.mod_eq_of_lt (by omega)]
  have h4 : s'.defaultRx1Delay.toNat / 1000 = if d = 0 then 1 else d := h2
  rw [h3] at h4 ⊢
  rw [Nat.mul_div_cancel _ (by decide)] at h4
  omega

example : ∃ log it s' o l f a n, Carries Tests.xorEnv log it s' o l f (a ++ [(.rxTimingSetupReq 4, n)]) ∧ passes Tests.xorEnv log o l f a ∧
    s'.defaultRx1Delay = 4000 := by
  obtain ⟨f, h⟩ := adrDemo
  have hf := h.fields
  refine ⟨_, _, _, _, _, f, [(.devStatusReq, 7), (.linkAdrReq 3 2 5 0 2, 2)], 0, h, ?_, by decide +kernel⟩
  unfold passes
  cases hf; decide +kernel

/-! ### C54, C37: DevStatusReq -/

/-- C54: a DevStatusReq is answered with the byte the battery callback returned, 255 if there is none, and the SNR of the packet that
carried it modulo 64; the callback is called once. -/
theorem C54_dev_status (h : Carries E log it s' o l f (a ++ (.devStatusReq, n) :: b)) (hp : passes E log o l f a)
    {c : Cfg} (hc : c = before E log o l f a) {asked : Bool} (ha : asked = true ↔ ∃ cbs, it.pre.mac.cbs = some cbs ∧ cbs.battery = true) :
    ∃ margin : Byte, margin.toNat < 64 ∧ (margin.toNat : Int) = o.snr.toInt % 64 ∧
      Onward E log it s' o l f a b
        { c with queue := if c.queue.length + 3 ≤ 15 then c.queue ++ [6, if asked then o.bat n else 255, margin] else c.queue }
        (if asked then [.getBattery] else []) (c.queue.length + 3 ≤ 15) := by
  have := h.onward hp
  obtain ⟨s, hs, hpre, -⟩ := h.hist.last
  have hcfg := config_hist hs
  have hfr := execAll_frame o.bat a ((config E log).arrived l f o.snr)
  have hsnr : c.snr = o.snr.toInt := by rw [hc]; exact hfr.snr
  have hcbs : c.cbs = it.pre.mac.cbs := by
    rw [hc, hpre]
    refine hfr.cbs.trans ?_
    show ((config E log).noteAck l).cbs = _
    unfold Cfg.noteAck
    rw [← hcfg]
    split <;> rfl
  have hask : (c.cbs.map (·.battery)).getD false = asked := by
    rw [Bool.eq_iff_iff, ha, hcbs]
    cases it.pre.mac.cbs <;> simp
  have hm : ∀ z : Int, (BitVec.ofInt 8 (z % 64)).toNat < 64 ∧ ((BitVec.ofInt 8 (z % 64)).toNat : Int) = z % 64 := by
    intro z
    have h1 : 0 ≤ z % 64 := Int.emod_nonneg _ (by decide)
    have h2 : z % 64 < 64 := Int.emod_lt_of_pos _ (by decide)
    obtain ⟨k, hk⟩ := Int.eq_ofNat_of_zero_le h1
    rw [hk] at h2 ⊢
    have : (BitVec.ofInt 8 (k : Int)).toNat = k := by
      rw [BitVec.ofInt_natCast, BitVec.toNat_ofNat]
      exact Nat.mod_eq_of_lt (by omega)
    rw [this]
    exact ⟨by omega, rfl⟩
  obtain ⟨z, hz⟩ : ∃ z, z = BitVec.ofInt 8 (c.snr % 64) := ⟨_, rfl⟩
  refine ⟨z, by rw [hz]; exact (hm _).1, by rw [hz, ← hsnr]; exact (hm _).2, ?_⟩
  rw [← hc] at this
  have e : c.exec (o.bat n) .devStatusReq = (decide (c.queue.length + 3 ≤ 15),
      { c with queue := if c.queue.length + 3 ≤ 15 then
          c.queue ++ [6, if asked then o.bat n else 255, z] else c.queue },
      if asked then [.getBattery] else []) := by
    unfold Cfg.exec Cfg.answer
    simp only [hask, ← hz]
    by_cases hf : c.queue.length + 3 ≤ 15 <;> simp [hf]
  rw [e] at this
  exact this

/-- C37, the network: for an SNR the radio drivers can report, -32..31, the margin in DevStatusAns is that SNR of the very packet that
carried the request, as a 6-bit two's complement number. -/
theorem C37_margin (h : Carries E log it s' o l f (a ++ (.devStatusReq, n) :: b)) (hp : passes E log o l f a)
    (hq : (before E log o l f a).queue.length + 3 ≤ 15) (h1 : -32 ≤ o.snr.toInt) (h2 : o.snr.toInt ≤ 31) :
    ∃ (bat margin : Byte) (rest : Bytes), s'.mac.queue = (before E log o l f a).queue ++ [6, bat, margin] ++ rest ∧
      margin.toNat < 64 ∧ o.snr.toInt = if margin.toNat < 32 then (margin.toNat : Int) else margin.toNat - 64 := by
  let asked := (it.pre.mac.cbs.map (·.battery)).getD false
  have ha : asked = true ↔ ∃ cbs, it.pre.mac.cbs = some cbs ∧ cbs.battery = true := by
    show (it.pre.mac.cbs.map (·.battery)).getD false = true ↔ _
    cases it.pre.mac.cbs <;> simp
  obtain ⟨m, hm1, hm2, h3, -⟩ := C54_dev_status h hp rfl ha
  generalize hb : (if asked = true then o.bat n else 255) = bt at h3
  obtain ⟨k, as, -, hk, -⟩ := execAll_queue o.bat b { before E log o l f a with
    queue := if (before E log o l f a).queue.length + 3 ≤ 15 then (before E log o l f a).queue ++ [6, bt, m]
      else (before E log o l f a).queue }
  refine ⟨bt, m, as.flatten, ?_, hm1, ?_⟩
  · show (cfgOf s').queue = _
    rw [h3]
    simp only [hq, decide_true, if_true] at hk ⊢
    exact hk
  · split <;> omega

example : ∃ log it s' o l f b n, Carries Tests.xorEnv log it s' o l f ([] ++ (.devStatusReq, n) :: b) ∧ passes Tests.xorEnv log o l f [] ∧
    (before Tests.xorEnv log o l f []).queue.length + 3 ≤ 15 ∧ o.snr.toInt = -5 ∧ it.pre.mac.cbs = some ⟨true, false, false, false⟩ ∧
    macCalls it.ev = [.getBattery] ∧ s'.mac.queue = [6, 0x64, 59, 8] := by
  have h := cmdDemo (dlOps ++ [.macSetHandlers (some ⟨true, false, false, false⟩)]) [6, 8, 4] [(.devStatusReq, 2), (.rxTimingSetupReq 4, 0)] _ (by decide +kernel)
    (by decide +kernel) (by decide +kernel) (by decide +kernel) (by decide +kernel) rfl (by decide +kernel)
  exact ⟨_, _, _, _, _, _, _, _, h, rfl, by decide +kernel, by decide +kernel, by decide +kernel, by decide +kernel, by decide +kernel⟩

/-! ### C55: commands that change nothing -/

/-- C55: TxParamSetupReq and DlChannelReq, wherever they stand, do nothing: configuration and calls are those of the same commands
without them. -/
theorem C55_skipped {cmd : Cmd} (h : Carries E log it s' o l f (a ++ (cmd, n) :: b)) (hc : cmd = .txParamSetupReq ∨ cmd = .dlChannelReq) :
    macCalls it.ev = (((config E log).arrived l f o.snr).execAll o.bat (a ++ b)).2 ∧
    cfgOf s' = { (((config E log).arrived l f o.snr).execAll o.bat (a ++ b)).1 with joining := false, cnt := rxCnt E log l } := by
  have key : ∀ (a : List (Cmd × Nat)) (c : Cfg), c.execAll o.bat (a ++ (cmd, n) :: b) = c.execAll o.bat (a ++ b) := by
    intro a
    induction a with
    | nil =>
      intro c
      rw [List.nil_append, List.nil_append, execAll_cons]
      rcases hc with rfl | rfl <;> rfl
    | cons x a ih =>
      intro c
      obtain ⟨y, k⟩ := x
      rw [List.cons_append, List.cons_append, execAll_cons, execAll_cons]
      simp only [ih]
  obtain ⟨h1, h2⟩ := h.all
  unfold before at h2
  rw [key] at h1 h2
  exact ⟨h1, h2⟩

/-- C55: a LinkCheckAns only calls the registered callback with its two bytes. -/
theorem C55_link_check {margin gw : Byte} (h : Carries E log it s' o l f (a ++ (.linkCheckAns margin gw, n) :: b))
    (hp : passes E log o l f a) {reg : Bool} (hr : reg = true ↔ ∃ cbs, it.pre.mac.cbs = some cbs ∧ cbs.linkCheck = true) :
    Onward E log it s' o l f a b (before E log o l f a) (if reg then [.linkCheckResult margin gw] else []) true := by
  have := h.onward hp
  obtain ⟨s, hs, hpre, -⟩ := h.hist.last
  have hcfg := config_hist hs
  have hfr := execAll_frame o.bat a ((config E log).arrived l f o.snr)
  have hcbs : (before E log o l f a).cbs = it.pre.mac.cbs := by
    rw [hpre]
    refine hfr.cbs.trans ?_
    show ((config E log).noteAck l).cbs = _
    unfold Cfg.noteAck
    rw [← hcfg]
    split <;> rfl
  have hreg : ((before E log o l f a).cbs.map (·.linkCheck)).getD false = reg := by
    rw [Bool.eq_iff_iff, hr, hcbs]
    cases it.pre.mac.cbs <;> simp
  unfold Cfg.exec at this
  simp only [hreg] at this
  exact this

/-- C55: a DutyCycleReq only queues its acknowledgement. -/
theorem C55_duty_cycle (h : Carries E log it s' o l f (a ++ (.dutyCycleReq, n) :: b)) (hp : passes E log o l f a)
    {c : Cfg} (hc : c = before E log o l f a) :
    Onward E log it s' o l f a b { c with queue := if c.queue.length + 1 ≤ 15 then c.queue ++ [4] else c.queue }
      [] (c.queue.length + 1 ≤ 15) := by
  have := h.onward hp
  rw [← hc] at this
  have e : c.exec (o.bat n) .dutyCycleReq = (decide (c.queue.length + 1 ≤ 15),
      { c with queue := if c.queue.length + 1 ≤ 15 then c.queue ++ [4] else c.queue }, []) := by
    unfold Cfg.exec Cfg.answer
    by_cases hf : c.queue.length + 1 ≤ 15 <;> simp [hf]
  rw [e] at this
  exact this

-- TxParamSetupReq, DutyCycleReq, DlChannelReq, LinkCheckAns, RXTimingSetupReq in one frame.
example : ∃ log it s' o l f, Carries Tests.xorEnv log it s' o l f
      [(.txParamSetupReq, 12), (.dutyCycleReq, 10), (.dlChannelReq, 5), (.linkCheckAns 7 2, 2), (.rxTimingSetupReq 4, 0)] ∧
    macCalls it.ev = [.linkCheckResult 7 2] ∧ s'.mac.queue = [4, 8] ∧ s'.defaultRx1Delay = 4000 :=
  ⟨_, _, _, _, _, _, cmdDemo (dlOps ++ [.macSetHandlers (some ⟨true, true, true, true⟩)]) [9, 0xff, 4, 3, 10, 1, 2, 3, 4, 2, 7, 2, 8, 4] _ _ (by decide +kernel) (by decide +kernel)
    (by decide +kernel) (by decide +kernel) (by decide +kernel) rfl (by decide +kernel), by decide +kernel, by decide +kernel, by decide +kernel⟩

/-! ### C56: time -/

theorem shift_back (t a b : U32) : t + a - b - a + b = t := by
  have h : t + a - b = t - b + a := by
    rw [BitVec.sub_eq_add_neg, BitVec.sub_eq_add_neg, BitVec.add_assoc, BitVec.add_assoc, BitVec.add_comm a]
  rw [h, BitVec.add_sub_cancel, BitVec.sub_add_cancel]

/-- C56: the two time conversions are inverse to each other on all 32-bit times. -/
theorem C56_inverse (t : U32) : unixToGps (gpsToUnix t) = t ∧ gpsToUnix (unixToGps t) = t := by
  have h2 : ∀ a b : U32, t - a + b + a - b = t := by
    intro a b
    rw [BitVec.add_assoc, BitVec.add_comm b, ← BitVec.add_assoc, BitVec.add_sub_cancel, BitVec.sub_add_cancel]
  exact ⟨shift_back .., h2 ..⟩

theorem gpsToUnix_add (t : U32) : gpsToUnix t = t + 315964782 := by
  show t + 315964800 - 18 = _
  have : (315964800 : U32) = 315964782 + 18 := by decide
  rw [this, ← BitVec.add_assoc, BitVec.add_sub_cancel]

theorem unixToGps_sub (t : U32) : unixToGps t = t - 315964782 := by
  have h := (C56_inverse (t - 315964782)).1
  rwa [gpsToUnix_add, BitVec.sub_add_cancel] at h

/-- C56: they shift by 315964782 seconds: the start of the GPS epoch less 18 leap seconds. -/
theorem C56_shift (t : U32) :
    (gpsToUnix t).toNat = (t.toNat + 315964782) % 2 ^ 32 ∧ (t.toNat + 315964782 < 2 ^ 32 → (gpsToUnix t).toNat = t.toNat + 315964782) ∧
    (315964782 ≤ t.toNat → (unixToGps t).toNat = t.toNat - 315964782) := by
  rw [gpsToUnix_add, unixToGps_sub]
  have e : (315964782 : U32).toNat = 315964782 := by decide
  have h1 := BitVec.toNat_add t 315964782
  rw [e] at h1
  refine ⟨h1, fun h => by rw [h1, Nat.mod_eq_of_lt h], fun h => ?_⟩
  rw [BitVec.toNat_sub_of_le (by rw [BitVec.le_def, e]; exact h), e]

example : gpsToUnix 1419724818 = 1735689600 ∧ unixToGps 1735689600 = 1419724818 := by decide

/-- C56: a DeviceTimeAns is reported to the registered callback as Unix time, with the fraction byte and the stored local time; it
changes nothing. -/
theorem C56_device_time {gps : Nat} {frac : Byte} (h : Carries E log it s' o l f (a ++ (.deviceTimeAns gps frac, n) :: b))
    (hp : passes E log o l f a) {reg : Bool} (hr : reg = true ↔ ∃ cbs, it.pre.mac.cbs = some cbs ∧ cbs.timeResult = true) :
    Onward E log it s' o l f a b (before E log o l f a)
      (if reg then [.deviceTimeResult it.pre.mac.devTime (BitVec.ofNat 32 (gps + 315964782)) frac] else []) true := by
  have := h.onward hp
  obtain ⟨s, hs, hpre, -⟩ := h.hist.last
  have hcfg := config_hist hs
  have hfr := execAll_frame o.bat a ((config E log).arrived l f o.snr)
  have hno : ((config E log).arrived l f o.snr).cbs = it.pre.mac.cbs ∧ ((config E log).arrived l f o.snr).devTime = it.pre.mac.devTime.toNat := by
    rw [hpre]
    show ((config E log).noteAck l).cbs = _ ∧ ((config E log).noteAck l).devTime = _
    unfold Cfg.noteAck
    rw [← hcfg]
    split <;> exact ⟨rfl, rfl⟩
  have hcbs : (before E log o l f a).cbs = it.pre.mac.cbs := hfr.cbs.trans hno.1
  have htime : (before E log o l f a).devTime = it.pre.mac.devTime.toNat := hfr.devTime.trans hno.2
  have hreg : ((before E log o l f a).cbs.map (·.timeResult)).getD false = reg := by
    rw [Bool.eq_iff_iff, hr, hcbs]
    cases it.pre.mac.cbs <;> simp
  unfold Cfg.exec at this
  have hg : gps + 315964800 - 18 = gps + 315964782 := by omega
  simp only [hreg, htime, hg, BitVec.ofNat_toNat, BitVec.setWidth_eq] at this
  exact this

example : ∃ log it s' o l f, Carries Tests.xorEnv log it s' o l f ([(.rxTimingSetupReq 4, 6)] ++ (.deviceTimeAns 1419724818 128, 0) :: []) ∧
    macCalls it.ev = [.deviceTimeResult 0 1735689600 128] :=
  ⟨_, _, _, _, _, _, cmdDemo (dlOps ++ [.macSetHandlers (some ⟨true, true, true, true⟩)]) [8, 4, 13, 0x12, 0x48, 0x9f, 0x54, 128] _ _ (by decide +kernel) (by decide +kernel)
    (by decide +kernel) (by decide +kernel) (by decide +kernel) rfl (by decide +kernel), by decide +kernel⟩

end Uwan
