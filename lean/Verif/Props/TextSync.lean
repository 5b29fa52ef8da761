import Verif.Lemmas.CodeSys
import Verif.Spec.TextSync
import Verif.Props.ClockSync
import Verif.Props.Safety
import Verif.Props.Text
import Verif.Tests.StackTests
import Verif.Tests.ClockSyncTests

/-!
# The program text with the clock synchronisation package (C147 - C150)

The functions of `src/*.c`, `src/region/*.c` and `src/ext/clock_sync.c`, printed from the sources, run by the semantics of C in `Verif/Code`, call after call.
-/

namespace Uwan.C
open Spec

variable {E : Env}

theorem SShows.split {l1 l2 : List SSeen} {log : List SItem} (h : SShows (l1 ++ l2) log) : ∃ log1 log2, log = log1 ++ log2 ∧ SShows l1 log1 ∧ SShows l2 log2 := by
  induction l1 generalizing log with
  | nil => exact ⟨[], log, rfl, .nil, h⟩
  | cons a l1 ih =>
    cases h with
    | cons ha hs =>
      obtain ⟨g1, g2, rfl, h1, h2⟩ := ih hs
      exact ⟨_ :: g1, g2, rfl, .cons ha h1, h2⟩

theorem SShows.one {a : SSeen} {log : List SItem} (h : SShows [a] log) : ∃ i, log = [i] ∧ a.Of i := by
  cases h with
  | cons ha hs => cases hs; exact ⟨_, rfl, ha⟩

/-- What is seen of the first calls is the first part of what is seen. -/
theorem runSys_append {L D : Nat} {m0 : SMem} {ts1 ts2 : List STurn} {seen : List SSeen} {m : SMem} (h : runSys L D m0 (ts1 ++ ts2) = .ok (seen, m)) :
    ∃ seen1 m1 seen2, runSys L D m0 ts1 = .ok (seen1, m1) ∧ runSys L D m1 ts2 = .ok (seen2, m) ∧ seen = seen1 ++ seen2 := by
  induction ts1 generalizing m0 seen with
  | nil => exact ⟨[], m0, seen, rfl, h, rfl⟩
  | cons t ts1 ih =>
    simp only [List.cons_append, runSys] at h ⊢
    split at h
    · cases h
    · rename_i v m' ev hr
      split at h
      · cases h
      · rename_i l m'' hr'
        cases h
        obtain ⟨s1, m1, s2, h1, h2, rfl⟩ := ih hr'
        exact ⟨_, m1, s2, by rw [h1], h2, rfl⟩

theorem runSys_turns {L D : Nat} {m0 : SMem} {ts : List STurn} {seen : List SSeen} {m : SMem} (h : runSys L D m0 ts = .ok (seen, m)) : seen.map (·.turn) = ts := by
  induction ts generalizing m0 seen with
  | nil => cases h; rfl
  | cons t ts ih =>
    unfold runSys at h
    split at h
    · cases h
    · split at h
      · cases h
      · rename_i hr
        cases h
        rw [List.map_cons, ih hr]

theorem answered_handle {I : Input} {rs : List Nat} {bat : Nat → Byte} {op : SOp} {err : Err} {port : Byte} {data tail : Bytes} {unix : U32}
    (h : SOp.csHandle err port data tail unix = SOp.answered I rs bat op) : op = .csHandle err port data tail unix := by
  cases op <;> simp only [SOp.answered, reduceCtorEq] at h
  exact h.symm

/-- Where the model says undefined behaviour: a packet the package does not handle, or the end of a transmission without MAC handlers. -/
theorem sys_error {log : List SItem} {s : Sys} (h : SHist E log s) {op : SOp} (hv : op.Valid) {u : UB} (hs : sysStep E s op = .error u) :
    (∃ err port data tail unix, op = .csHandle err port data tail unix ∧ Spec.Fault true True (readSync [] data)) ∨
    (∃ b o, op = .stack (.event b o) ∧ b.toNat / 4 % 2 = 1 ∧ s.stack.mac.cbs = none) := by
  cases op with
  | stack op =>
    obtain ⟨l, hl, -⟩ := stack_hist h
    rcases C61_defined_partial hl hv with ⟨r, s', ev, h1, -⟩ | ⟨-, -, ⟨b, o, rfl, hb⟩, -, hc⟩
    · exfalso
      simp only [sysStep, h1, bind, Except.bind] at hs
      cases hs
    · refine .inr ⟨b, o, rfl, hb, ?_⟩
      rw [← config_hist hl] at hc
      exact hc
  | csInit cbs => cases hs
  | csHandle err port data tail unix =>
    refine .inl ⟨err, port, data, tail, unix, rfl, ?_⟩
    rcases C65_handle h err port unix hv hs with h1 | h1 | ⟨-, h1⟩
    · exact .inl h1
    · exact .inr (.inl h1)
    · exact .inr (.inr ⟨rfl, h1⟩)
  | csTimeReq ans unix rnd =>
    exfalso
    have := C63_time_request h ans unix rnd
    split at this
    · rw [hs] at this; cases this
    · obtain ⟨r, s', ev, -, h1⟩ := this
      rw [hs] at h1; cases h1
  | csIsPending => cases hs
  | csSendAnsw rnd =>
    exfalso
    by_cases hp : (syncView log).held = []
    · have := C69_none h hp rnd
      rw [hs] at this; cases this
    · obtain ⟨r, s', ev, -, h1⟩ := C69_resend h hp rnd
      rw [hs] at h1; cases h1

/-! ### A concrete day with the package -/

/-- A call in the environment of the test suite. -/
def syncTurn (op : SOp) : STurn := ⟨op, 3, ⟨Tests.xorEnv, [], BitVec.ofInt 16 (-120), BitVec.ofInt 8 (-5), 0, 0⟩, [7, 9], List.replicate 16 0x64⟩

/-- What is seen of concrete calls. -/
def syncSeen (ts : List STurn) : List SSeen :=
  match runSys 513 9 (startSys (Vector.replicate 16 0, [])) ts with
  | .ok (l, _) => l
  | .error _ => []

/-- A device with a session registers callbacks and gets the packet of the unit test; the application asks whether answers are pending, and sends a time request. -/
def syncTurns : List STurn :=
  [.stack (.init .eu868), .stack (.setSession 0x01020304 0 0 Tests.appKey Tests.appKey), .csInit (some ⟨true⟩), .csHandle .no 202 Tests.csPld [] 1722419302, .csIsPending,
    .csTimeReq true 1722419302 0].map syncTurn

theorem sync_valid : ∀ t ∈ syncTurns, t.Valid Tests.xorEnv := by
  intro t ht
  simp only [syncTurns, List.map_cons, List.map_nil, List.mem_cons, List.not_mem_nil, or_false] at ht
  rcases ht with rfl | rfl | rfl | rfl | rfl | rfl <;>
    exact ⟨by decide, rfl, by decide, by decide, by decide⟩

theorem sync_sound : ∀ t ∈ syncTurns, t.Sound := by
  intro t ht
  simp only [syncTurns, List.map_cons, List.map_nil, List.mem_cons, List.not_mem_nil, or_false] at ht
  rcases ht with rfl | rfl | rfl | rfl | rfl | rfl
  · trivial
  · trivial
  · trivial
  · show ¬ Spec.Fault true True (readSync [] Tests.csPld)
    have h1 : readSync [] Tests.csPld = [.version, .timeAns (-2) 0, .period 1, .resync 3] := by decide +kernel
    rw [h1]
    rintro (⟨h, -⟩ | h | ⟨-, p, hp, h⟩)
    · simp at h
    · simp at h
    · simp at h; omega
  · trivial
  · trivial

theorem sync_facts : (syncSeen syncTurns).length = 6 ∧ (∀ b ∈ ((syncSeen syncTurns).take 5).drop 3, b.registers = false) ∧ (∀ b ∈ (syncSeen syncTurns).drop 5, b.val == enumVal 0) ∧
    (∀ b ∈ ((syncSeen syncTurns).take 5).drop 4, b.val == boolVal true) ∧ corrected (((syncSeen syncTurns).take 5).drop 3) = [-2] ∧
    owed true (((syncSeen syncTurns).take 5).drop 3) = [0, 1, 1, 2, 0, 0xf8, 0xca, 0xd4, 0x53] ∧ (∀ b ∈ ((syncSeen syncTurns).take 4).drop 3, .cs .ubShift ∈ b.ev) := by
  decide +kernel

theorem sync_take : (syncSeen (syncTurns.take 4)).length = 4 ∧ (∀ b ∈ (syncSeen (syncTurns.take 4)).drop 3, .cs (.correction (BitVec.ofInt 32 (-2))) ∈ b.ev) := by decide +kernel

/-- The calls succeed if something is seen. -/
theorem sync_by {ts : List STurn} {n : Nat} (hv : ∀ t ∈ ts, t.Valid Tests.xorEnv) (hs : ∀ t ∈ ts, t.Sound) (hn : (syncSeen ts).length = n + 1) :
    ∃ m, SRan Tests.xorEnv (syncSeen ts) m ∧ (∀ a ∈ syncSeen ts, a.turn.Sound) ∧ (syncSeen ts).map (·.turn) = ts := by
  unfold syncSeen at *
  cases h : runSys 513 9 (startSys (Vector.replicate 16 0, [])) ts with
  | error f => rw [h] at hn; cases hn
  | ok x =>
    have ht := runSys_turns h
    refine ⟨x.2, ⟨513, 9, (Vector.replicate 16 0, []), Nat.le_refl _, Nat.le_refl _, ?_, ?_⟩, ?_, ht⟩
    · intro a ha
      exact hv _ (by rw [← ht]; exact List.mem_map_of_mem ha)
    · show runSys 513 9 _ (x.1.map (·.turn)) = _
      rw [ht]
      exact h
    · intro a ha
      exact hs _ (by rw [← ht]; exact List.mem_map_of_mem ha)

theorem sync_turn {ts : List STurn} (ht : (syncSeen ts).map (·.turn) = ts) (i : Nat) (hi : i < (syncSeen ts).length) : (syncSeen ts)[i].turn = ts[i]'(by rw [← ht]; simpa using hi) := by
  rw [← List.getElem_map (SSeen.turn) (h := by simpa using hi)]
  exact List.getElem_of_eq ht _

/-! ### C147 -/

/-- **C147** Whatever is seen of the program text of the stack and the package from power-on is a history of the model: same calls, same values returned, same calls to the radio, the timers, the cipher and the application
with the same arguments in the same order. The one exception: in a call with a packet the package does not handle, an undefined shift was executed (recorded as `ubShift`); up to that call the text is a history of the model. -/
theorem C147_text_history {seen : List SSeen} {m : SMem} (h : SRan E seen m) :
    ∃ log s, SHist E log s ∧
      ((SShows seen log ∧ (∃ x, m.stack.glob = enc s.stack x) ∧ ∃ buf n period args, m.glob = encCs s.cs buf n period args) ∨
      ∃ done a rest, seen = done ++ a :: rest ∧ SShows done log ∧ .cs .ubShift ∈ a.ev ∧ ¬ a.turn.Sound) := by
  obtain ⟨L, D, c, hL, hD, hv, h⟩ := h
  obtain ⟨k, rfl⟩ : ∃ k, D = k + 9 := ⟨D - 9, by omega⟩
  rw [startSys_enc] at h
  rcases run_sys L k hL E (seen.map (·.turn)) (by simpa using hv) ⟨.boot, .boot⟩ .boot _ srest_boot ⟨[], [], c, []⟩ [] .nil with
    ⟨seen', more, s', x', g', w', hseg, hsh, -, hr, hrest⟩ | ⟨done, t, rest, seen', more, s', x', g', w', op, u, hts, hseg, hsh, hmap, -, hrest, ⟨bat, his⟩, hop, hs, hr⟩
  · rw [h] at hr
    cases hr
    obtain ⟨buf, n, period, args, hi⟩ := hrest.idle
    exact ⟨more, s', hseg, .inl ⟨hsh, ⟨x', rfl⟩, buf, n, period, args, hi.glob⟩⟩
  · rw [hts, show done ++ t :: rest = (done ++ [t]) ++ rest by simp] at h
    obtain ⟨seen1, m1, seen2, h1, -, rfl⟩ := runSys_append h
    rcases hr with ⟨f, hf⟩ | ⟨v, ev, m', hf, hm, err, port, data, tail, unix, ht⟩
    · rw [hf] at h1; cases h1
    · rw [hf] at h1
      cases h1
      refine ⟨more, s', hseg, .inr ⟨seen', ⟨t, v, ev⟩, seen2, by simp, hsh, hm, ?_⟩⟩
      rw [ht] at his
      rcases sys_error hseg hop hs with ⟨err', port', data', tail', unix', ho, hF⟩ | ⟨b, o, ho, -⟩
      · rw [ho] at his
        have := answered_handle his
        intro hso
        unfold STurn.Sound at hso
        simp only at hso
        rw [ht] at hso
        simp only [SOp.csHandle.injEq] at this
        obtain ⟨-, -, rfl, -⟩ := this
        exact hso hF
      · rw [ho] at his
        cases his

/-- **C147** Without such packets the text is a history of the model. -/
theorem C147_text_sound {seen : List SSeen} {m : SMem} (h : SRan E seen m) (hs : ∀ a ∈ seen, a.turn.Sound) : ∃ log s, SHist E log s ∧ SShows seen log := by
  obtain ⟨log, s, hh, ⟨h1, -⟩ | ⟨done, a, rest, rfl, -, -, ha⟩⟩ := C147_text_history h
  · exact ⟨log, s, hh, h1⟩
  · exact (ha (hs a (by simp))).elim

example : ∃ m, SRan Tests.xorEnv (syncSeen syncTurns) m ∧ (∀ a ∈ syncSeen syncTurns, a.turn.Sound) ∧ (syncSeen syncTurns).length = 6 := by
  obtain ⟨m, h, hs, -⟩ := sync_by sync_valid sync_sound sync_facts.1
  exact ⟨m, h, hs, sync_facts.1⟩

/-! ### C148 -/

/-- **C148** The program text runs through any calls, unless one of them is one of two: the end of a transmission while the application has no table of MAC handlers, or a packet the package does not handle; the calls before it are run through. -/
theorem C148_text_safe (L D : Nat) (hL : 513 ≤ L) (hD : 9 ≤ D) (c : Block × Bytes) (ts : List STurn) (hv : ∀ t ∈ ts, t.Valid E) :
    (∃ seen m, runSys L D (startSys c) ts = .ok (seen, m)) ∨
    ∃ done t rest seen m, ts = done ++ t :: rest ∧ runSys L D (startSys c) done = .ok (seen, m) ∧
      (¬ t.Sound ∨ ((∃ b o, t.op = .stack (.event b o) ∧ b.toNat / 4 % 2 = 1) ∧ m.stack.glob.get "mac_cbs" = some [.null])) := by
  obtain ⟨k, rfl⟩ : ∃ k, D = k + 9 := ⟨D - 9, by omega⟩
  rw [startSys_enc]
  rcases run_sys L k hL E ts hv ⟨.boot, .boot⟩ .boot _ srest_boot ⟨[], [], c, []⟩ [] .nil with
    ⟨seen', more, s', x', g', w', -, -, -, hr, -⟩ | ⟨done, t, rest, seen', more, s', x', g', w', op, u, hts, hseg, -, -, hd, hrest, ⟨bat, his⟩, hop, hs, -⟩
  · exact .inl ⟨_, _, hr⟩
  · refine .inr ⟨done, t, rest, seen', _, hts, hd, ?_⟩
    rcases sys_error hseg hop hs with ⟨err', port', data', tail', unix', ho, hF⟩ | ⟨b, o, ho, hb, hc⟩
    · rw [ho] at his
      have := answered_handle his
      refine .inl fun hso => ?_
      unfold STurn.Sound at hso
      rw [this] at hso
      exact hso hF
    · refine .inr ⟨⟨b, ?_⟩, ?_⟩
      · rw [ho] at his
        generalize t.op = top at *
        cases top <;> simp only [SOp.answered, reduceCtorEq, SOp.stack.injEq] at his
        rename_i op'
        cases op' <;> simp only [Op.answered, reduceCtorEq, Op.event.injEq] at his
        obtain ⟨rfl, -⟩ := his
        exact ⟨_, rfl, hb⟩
      · show (enc s'.stack x').get "mac_cbs" = _
        rw [get_mac_cbs, hc]
        rfl

/-- **C148** In a call with a packet the package handles, an undefined shift is executed only if the packet has a negative correction. -/
theorem C148_text_shift {seen : List SSeen} {m : SMem} (h : SRan E seen m) (hs : ∀ a ∈ seen, a.turn.Sound) {a : SSeen} (ha : a ∈ seen) (hm : .cs .ubShift ∈ a.ev) :
    ∃ err port data tail unix v t, a.turn.op = .csHandle err port data tail unix ∧ .timeAns v t ∈ readSync [] data ∧ v < 0 := by
  obtain ⟨log, s, hh, hsh⟩ := C147_text_sound h hs
  obtain ⟨l1, l2, rfl⟩ := List.append_of_mem ha
  rw [show l1 ++ a :: l2 = (l1 ++ [a]) ++ l2 by simp] at hsh
  obtain ⟨g1, g2, rfl, h1, h2⟩ := hsh.split
  obtain ⟨g3, g4, rfl, h3, h4⟩ := h1.split
  obtain ⟨i, rfl, hi⟩ := h4.one
  obtain ⟨s1, hh1⟩ := hh.take rfl
  obtain ⟨s0, h0, -, -, hv, hst⟩ := hh1.last
  obtain ⟨⟨bat, ho⟩, -, he⟩ := hi
  rw [he] at hm
  have hcs : ∀ {s : Sys} {pld : Bytes} {rnd : Nat} {r : Ret} {s' : Sys} {ev : List SEv}, csSend E s pld rnd = .ok (r, s', ev) → .cs .ubShift ∉ ev := by
    intro s pld rnd r s' ev h hm
    unfold csSend at h
    obtain ⟨⟨r1, st, e1⟩, -, h⟩ := bind_ok h
    simp only [Except.ok.injEq, Prod.mk.injEq] at h
    rw [← h.2.2] at hm
    simp at hm
  cases hop : i.op with
  | stack op =>
    rw [hop] at hst
    obtain ⟨⟨r1, st, e1⟩, -, h⟩ := bind_ok hst
    simp only [Except.ok.injEq, Prod.mk.injEq] at h
    rw [← h.2.2] at hm
    simp at hm
  | csInit cbs =>
    rw [hop] at hst
    simp only [sysStep, Except.ok.injEq, Prod.mk.injEq] at hst
    rw [← hst.2.2] at hm
    cases hm
  | csHandle err port data tail unix =>
    rw [hop] at ho hst hv
    have hta := answered_handle ho
    have hso := hs a (by simp)
    unfold STurn.Sound at hso
    rw [hta] at hso
    obtain ⟨s', ev, h1, h2⟩ := C66_defined_partial h0 err port unix hv (fun hF => hso (by
      rcases hF with h1 | h1 | ⟨-, h1⟩
      · exact .inl h1
      · exact .inr (.inl h1)
      · exact .inr (.inr ⟨rfl, h1⟩)))
    rw [h1 tail] at hst
    simp only [Except.ok.injEq, Prod.mk.injEq] at hst
    rw [← hst.2.2] at hm
    obtain ⟨v, t, h3, h4⟩ := h2 hm
    exact ⟨err, port, data, tail, unix, v, t, hta, h3, h4⟩
  | csTimeReq ans unix rnd =>
    exfalso
    have := C63_time_request h0 ans unix rnd
    rw [hop] at hst
    split at this
    · rw [hst] at this
      simp only [Except.ok.injEq, Prod.mk.injEq] at this
      rw [this.2.2] at hm
      cases hm
    · obtain ⟨r, s', ev, -, h1⟩ := this
      rw [hst] at h1
      simp only [Except.ok.injEq, Prod.mk.injEq] at h1
      rw [h1.2.2] at hm
      simp at hm
  | csIsPending =>
    rw [hop] at hst
    simp only [sysStep, Except.ok.injEq, Prod.mk.injEq] at hst
    rw [← hst.2.2] at hm
    cases hm
  | csSendAnsw rnd =>
    exfalso
    rw [hop] at hst
    replace hst : (if s0.cs.ansPending then csSend E s0 s0.cs.ans rnd else .ok (.err .state, s0, [])) = .ok (i.ret, s1, i.ev) := hst
    split at hst
    · exact hcs hst hm
    · simp only [Except.ok.injEq, Prod.mk.injEq] at hst
      rw [← hst.2.2] at hm
      cases hm

/-- The day runs through, with an undefined shift in the call with the packet of the unit test. -/
example : ∃ m a, SRan Tests.xorEnv (syncSeen syncTurns) m ∧ (∀ a ∈ syncSeen syncTurns, a.turn.Sound) ∧ a ∈ syncSeen syncTurns ∧ .cs .ubShift ∈ a.ev := by
  obtain ⟨m, h, hs, -⟩ := sync_by sync_valid sync_sound sync_facts.1
  have hl := sync_facts.1
  refine ⟨m, (syncSeen syncTurns)[3], h, hs, List.getElem_mem _, sync_facts.2.2.2.2.2.2 _ ?_⟩
  exact List.mem_drop_iff_getElem.mpr ⟨0, by rw [List.length_take, hl]; decide, by simp⟩

/-- The exceptions of C148 and C147: a lone ForceDeviceResyncReq and a period from 6 on stop the text with a fault, and so does an identifier from 32 on; with 31 it goes on after an undefined shift. -/
theorem C148_faults : [[3], [2, 6], [32]].all (fun data => match runSys 513 9 (startSys (Vector.replicate 16 0, [])) (syncTurns.take 3 ++ [syncTurn (.csHandle .no 202 data [] 0)]) with
      | .error _ => true | .ok _ => false) = true ∧
    (match runSys 513 9 (startSys (Vector.replicate 16 0, [])) (syncTurns.take 3 ++ [syncTurn (.csHandle .no 202 [31] [] 0)]) with
      | .error _ => false | .ok (l, _) => l.any fun a => a.ev.contains (.cs .ubShift)) = true := by
  decide +kernel

/-! ### C149 -/

/-- Only packets received without error lead to corrections. -/
theorem corrections_only {log : List SItem} {it : SItem} {s : Sys} (h : SHist E (log ++ [it]) s) (hc : corrections (callsOf it.ev) ≠ []) : ∃ port data tail unix, it.op = .csHandle .no port data tail unix := by
  obtain ⟨s0, h0, -, -, hv, hs⟩ := h.last
  obtain ⟨err, port, data, tail, unix, hop⟩ := calls_only hs (by intro h0; rw [h0] at hc; exact hc rfl)
  rw [hop] at hv hs
  rcases handle_step h0 hv hs with ⟨-, -, he⟩ | ⟨rfl, -⟩
  · rw [he] at hc; exact (hc rfl).elim
  · exact ⟨port, data, tail, unix, hop⟩

theorem corrections_item {pre log : List SItem} {s : Sys} (h : SHist E (pre ++ log) s) : ∀ i ∈ log, corrections (callsOf i.ev) ≠ [] → ∃ port data tail unix, i.op = .csHandle .no port data tail unix := by
  intro i hi hc
  obtain ⟨l1, l2, rfl⟩ := List.append_of_mem hi
  obtain ⟨s1, h1⟩ := h.take (a := pre ++ l1 ++ [i]) (b := l2) (by simp)
  exact corrections_only h1 hc

theorem corrected_cons (a : SSeen) (l : List SSeen) : (corrected (a :: l)).length = (corrections (callsOf a.ev)).length + (corrected l).length := by
  unfold corrected
  rw [List.flatMap_cons, show callsOf (a.ev ++ l.flatMap (·.ev)) = callsOf a.ev ++ callsOf (l.flatMap (·.ev)) from List.filterMap_append,
    show corrections (callsOf a.ev ++ callsOf (l.flatMap (·.ev))) = corrections (callsOf a.ev) ++ corrections (callsOf (l.flatMap (·.ev))) from List.filterMap_append, List.length_append]

theorem corrected_one (a : SSeen) : corrected [a] = corrections (callsOf a.ev) := by
  unfold corrected
  simp

/-- What the observer of the model knows is what is seen of the text. -/
theorem view_seen {seg : List SSeen} {log : List SItem} (hs : SShows seg log) (p : Bool) (k : Nat) (hd : Bytes) (hr : ∀ b ∈ seg, b.registers = false)
    (hc : ∀ i ∈ log, corrections (callsOf i.ev) ≠ [] → ∃ port data tail unix, i.op = .csHandle .no port data tail unix) :
    log.foldl SyncView.next ⟨some p, k, hd⟩ = ⟨some p, k + (corrected seg).length, seg.foldl (fun h a =>
      match a.turn.op with
      | .csHandle .no port data _ unix => if port = 202 then answers p unix.toNat (readSync [] data) else []
      | _ => h) hd⟩ := by
  induction hs generalizing k hd with
  | nil => rfl
  | @cons a i as l ha _ ih =>
    obtain ⟨⟨bat, ho⟩, -, he⟩ := ha
    have hreg := hr a (by simp)
    have hci := hc i (by simp)
    rw [List.foldl_cons, List.foldl_cons, corrected_cons, he]
    have hz : (∀ port data tail unix, i.op ≠ .csHandle .no port data tail unix) → (corrections (callsOf i.ev)).length = 0 := by
      intro hn
      apply Decidable.byContradiction
      intro hx
      obtain ⟨_, _, _, _, h1⟩ := hci (by intro h0; rw [h0] at hx; exact hx rfl)
      exact hn _ _ _ _ h1
    rw [← Nat.add_assoc]
    unfold SSeen.registers at hreg
    have hnext : SyncView.next ⟨some p, k, hd⟩ i = ⟨some p, k + (corrections (callsOf i.ev)).length, match a.turn.op with
      | .csHandle .no port data _ unix => if port = 202 then answers p unix.toNat (readSync [] data) else []
      | _ => hd⟩ := by
      unfold SyncView.next
      generalize a.turn.op = top at *
      cases top <;> simp only [SOp.answered] at ho <;> simp only at hreg ⊢
      · rw [ho, hz (by rw [ho]; intros; simp)]; rfl
      · cases hreg
      · rename_i err port data tail unix
        rw [ho]
        simp only
        cases err
        · rfl
        all_goals rw [hz (by rw [ho]; intros; simp)]; rfl
      · rw [ho, hz (by rw [ho]; intros; simp)]; rfl
      · rw [ho, hz (by rw [ho]; intros; simp)]; rfl
      · rw [ho, hz (by rw [ho]; intros; simp)]; rfl
    rw [hnext]
    exact ih _ _ (fun b hb => hr b (by simp [hb])) (fun i hi => hc i (by simp [hi]))

/-- The history of the model behind what is seen from a registration on. -/
theorem since_registered {l seg : List SSeen} {a0 a : SSeen} {m : SMem} (h : SRan E (l ++ [a0] ++ seg ++ [a]) m) (hs : ∀ b ∈ l ++ [a0] ++ seg ++ [a], b.turn.Sound)
    {cb : CsCbs} (h0 : a0.turn.op = .csInit (some cb)) (hseg : ∀ b ∈ seg, b.registers = false) :
    ∃ log i s, SHist E (log ++ [i]) s ∧ a.Of i ∧ syncView log = ⟨some cb.period, (corrected seg).length, owed cb.period seg⟩ := by
  obtain ⟨log, s, hh, hsh⟩ := C147_text_sound h hs
  obtain ⟨g1, g2, rfl, h1, h2⟩ := hsh.split
  obtain ⟨g3, g4, rfl, h3, h4⟩ := h1.split
  obtain ⟨g5, g6, rfl, h5, h6⟩ := h3.split
  obtain ⟨i, rfl, hi⟩ := h2.one
  obtain ⟨i0, rfl, hi0⟩ := h6.one
  refine ⟨_, i, s, hh, hi, ?_⟩
  obtain ⟨s1, hh1⟩ := hh.take rfl
  have hv0 : syncView (g5 ++ [i0]) = ⟨some cb.period, 0, []⟩ := by
    rw [syncView_snoc]
    obtain ⟨⟨bat, ho⟩, -, -⟩ := hi0
    rw [h0] at ho
    unfold SyncView.next
    rw [ho]
    rfl
  have := view_seen h4 cb.period 0 [] hseg (corrections_item hh1)
  rw [← hv0, Nat.zero_add] at this
  unfold syncView at this ⊢
  rw [List.foldl_append, this]
  rfl

/-- **C149** When the program text asks the application to correct its clock, the call was one with a packet received without error on port 202 that has an AppTimeAns with this value as a signed number and with the
current token: the number of corrections made since the callbacks were registered, modulo 16; and this is the only correction of the call. -/
theorem C149_text_correction {l seg : List SSeen} {a0 a : SSeen} {m : SMem} (h : SRan E (l ++ [a0] ++ seg ++ [a]) m) (hs : ∀ b ∈ l ++ [a0] ++ seg ++ [a], b.turn.Sound)
    {cb : CsCbs} (h0 : a0.turn.op = .csInit (some cb)) (hseg : ∀ b ∈ seg, b.registers = false) {v : BitVec 32} (he : .cs (.correction v) ∈ a.ev) :
    ∃ pre b c d e t rest tail unix, a.turn.op = .csHandle .no 202 (pre ++ [1, b, c, d, e, t] ++ rest) tail unix ∧
      v.toInt = signed32 (leNat [b, c, d, e]) ∧ t.toNat % 16 = (corrected seg).length % 16 ∧ corrected [a] = [v.toInt] := by
  obtain ⟨log, i, s, hh, ⟨⟨bat, ho⟩, -, hev⟩, hview⟩ := since_registered h hs h0 hseg
  rw [hev] at he
  obtain ⟨pre, b, c, d, e, t, rest, tail, unix, h1, -, h2, h3, h4⟩ := C64_applied hh he
  rw [h1] at ho
  rw [hview] at h3
  exact ⟨pre, b, c, d, e, t, rest, tail, unix, answered_handle ho, h2, h3, by rw [corrected_one, hev]; exact h4⟩

/-- The correction of the day. -/
example : ∃ l a0 seg a m, SRan Tests.xorEnv (l ++ [a0] ++ seg ++ [a]) m ∧ (∀ b ∈ l ++ [a0] ++ seg ++ [a], b.turn.Sound) ∧ a0.turn.op = .csInit (some ⟨true⟩) ∧
    (∀ b ∈ seg, b.registers = false) ∧ .cs (.correction (BitVec.ofInt 32 (-2))) ∈ a.ev := by
  obtain ⟨hl, hc⟩ := sync_take
  obtain ⟨m, h, hs, ht⟩ := sync_by (fun t h => sync_valid t (List.mem_of_mem_take h)) (fun t h => sync_sound t (List.mem_of_mem_take h)) hl
  have hcut := cut_at (syncSeen (syncTurns.take 4)) 2 3 (by decide) (by rw [hl])
  rw [hcut] at h hs
  refine ⟨_, _, _, _, m, h, hs, by rw [sync_turn ht]; rfl, ?_, ?_⟩
  · rw [List.drop_eq_nil_of_le (by rw [List.length_take, hl]; decide)]
    simp
  · exact hc _ (List.mem_drop_iff_getElem.mpr ⟨0, by rw [hl]; decide, rfl⟩)

/-- **C149** An AppTimeAns with the current token at the start of a packet is applied. -/
theorem C149_text_accepted {l seg : List SSeen} {a0 a : SSeen} {m : SMem} (h : SRan E (l ++ [a0] ++ seg ++ [a]) m) (hs : ∀ b ∈ l ++ [a0] ++ seg ++ [a], b.turn.Sound)
    {cb : CsCbs} (h0 : a0.turn.op = .csInit (some cb)) (hseg : ∀ b ∈ seg, b.registers = false) {b c d e t : Byte} {rest tail : Bytes} {unix : U32} (hl : rest.length ≤ 249)
    (hop : a.turn.op = .csHandle .no 202 ([1, b, c, d, e, t] ++ rest) tail unix) (ht : t.toNat % 16 = (corrected seg).length % 16) :
    corrected [a] = [signed32 (leNat [b, c, d, e])] := by
  obtain ⟨log, i, s, hh, ⟨⟨bat, ho⟩, -, hev⟩, hview⟩ := since_registered h hs h0 hseg
  obtain ⟨s0, hh0, -, -, -, hst⟩ := hh.last
  rw [hop] at ho
  rw [ho] at hst
  rw [corrected_one, hev]
  exact (C64_accepted hh0 hl (by rw [hview]; simp) (by rw [hview]; exact ht) hst).1

/-- An AppTimeAns with token 0 as the first packet. -/
def firstTurns : List STurn := syncTurns.take 3 ++ [syncTurn (.csHandle .no 202 [1, 5, 0, 0, 0, 0] [] 0)]

theorem first_length : (syncSeen firstTurns).length = 4 := by decide +kernel

example : ∃ l a0 seg a m, SRan Tests.xorEnv (l ++ [a0] ++ seg ++ [a]) m ∧ (∀ b ∈ l ++ [a0] ++ seg ++ [a], b.turn.Sound) ∧ a0.turn.op = .csInit (some ⟨true⟩) ∧
    (∀ b ∈ seg, b.registers = false) ∧ a.turn.op = .csHandle .no 202 ([1, 5, 0, 0, 0, 0] ++ []) [] 0 ∧ (0 : Byte).toNat % 16 = (corrected seg).length % 16 := by
  have hl := first_length
  have hv : ∀ t ∈ firstTurns, t.Valid Tests.xorEnv := by
    intro t ht
    rcases List.mem_append.mp ht with ht | ht
    · exact sync_valid t (List.mem_of_mem_take ht)
    · rw [List.mem_singleton.mp ht]
      exact ⟨by decide, rfl, by decide, by decide, by decide⟩
  have hso : ∀ t ∈ firstTurns, t.Sound := by
    intro t ht
    rcases List.mem_append.mp ht with ht | ht
    · exact sync_sound t (List.mem_of_mem_take ht)
    · rw [List.mem_singleton.mp ht]
      show ¬ Spec.Fault true True (readSync [] [1, 5, 0, 0, 0, 0])
      have h1 : readSync [] [1, 5, 0, 0, 0, 0] = [.timeAns 5 0] := by decide +kernel
      rw [h1]
      rintro (⟨h, -⟩ | h | ⟨-, p, hp, h⟩) <;> simp at h
  obtain ⟨m, h, hs, ht⟩ := sync_by hv hso hl
  have hcut := cut_at (syncSeen firstTurns) 2 3 (by decide) (by rw [hl])
  rw [hcut] at h hs
  have hnil : ((syncSeen firstTurns).take 3).drop (2 + 1) = [] := List.drop_eq_nil_of_le (by rw [List.length_take, hl]; decide)
  refine ⟨_, _, _, _, m, h, hs, by rw [sync_turn ht]; rfl, ?_, by rw [sync_turn ht]; rfl, ?_⟩
  · rw [hnil]
    simp
  · rw [hnil]
    rfl

/-! ### C150 -/

/-- **C150** With callbacks registered, a time request of the program text reads the time of the application and hands one message to the stack, unconfirmed on port 202: the answers to the last packet received without error, then
AppTimeReq with the GPS time, the token and the flag. If `UWAN_ERR_NO` is returned, exactly one frame was handed to the radio: an unconfirmed LoRaWAN data frame on port 202 with a payload of that length. -/
theorem C150_text_request {l seg : List SSeen} {a0 a : SSeen} {m : SMem} (h : SRan E (l ++ [a0] ++ seg ++ [a]) m) (hs : ∀ b ∈ l ++ [a0] ++ seg ++ [a], b.turn.Sound)
    {cb : CsCbs} (h0 : a0.turn.op = .csInit (some cb)) (hseg : ∀ b ∈ seg, b.registers = false) {flag : Bool} {unix : U32} {rnd : Nat} (hop : a.turn.op = .csTimeReq flag unix rnd) :
    let pld := owed cb.period seg ++ [1] ++ leBytes 4 (gpsTime unix.toNat) ++ [BitVec.ofNat 8 ((corrected seg).length % 16 + if flag then 16 else 0)]
    ∃ ev, a.ev = .cs .getTime :: .cs (.sendFrame 202 pld false) :: ev.map .st ∧
      (a.val = enumVal 0 → ∃ frame f, txs ev = [frame] ∧ parse frame = some f ∧ f.mtype = 2 ∧ f.port = some 202 ∧ f.payload.length = pld.length) := by
  intro pld
  obtain ⟨log, i, s, hh, ⟨⟨bat, ho⟩, hval, hev⟩, hview⟩ := since_registered h hs h0 hseg
  obtain ⟨s0, hh0, -, -, hv, hst⟩ := hh.last
  rw [hop] at ho
  rw [ho] at hst
  have := C63_time_request hh0 flag unix (a.turn.rands[0]?.getD 0)
  rw [if_neg (by rw [hview]; simp), hview] at this
  obtain ⟨r, s', ev, h1, h2⟩ := this
  have hst' := hst.symm.trans h2
  simp only [Except.ok.injEq, Prod.mk.injEq] at hst'
  refine ⟨ev, by rw [hev]; exact hst'.2.2, fun hr => ?_⟩
  obtain ⟨l', hl', -⟩ := stack_hist hh0
  have hlen : pld.length ≤ 255 := by
    have := (C65_answers hh0).2
    rw [hview] at this
    replace this : (owed cb.period seg).length ≤ 9 := this
    simp only [pld, List.length_append, List.length_cons, List.length_nil]
    have h4 : (leBytes 4 (gpsTime unix.toNat)).length = 4 := rfl
    omega
  rw [hval, hst'.1] at hr
  have hret : r = .err .no := by
    have h5 := ret_no r
    rw [hr] at h5
    simpa [enumVal] using h5
  subst hret
  obtain ⟨fr, f, p1, p2, p3, -, -, -, -, -, -, p4, p5, -⟩ := C01_uplink_frame (hl'.snoc (op := .send 202 pld false (a.turn.rands[0]?.getD 0)) hlen h1) rfl rfl
  rw [if_neg (by simp [pld])] at p4
  exact ⟨fr, f, p1, p2, p3, p4, p5⟩

/-- The request of the day: nine bytes of answers, token 1, and the request is accepted. -/
example : ∃ l a0 seg a m, SRan Tests.xorEnv (l ++ [a0] ++ seg ++ [a]) m ∧ (∀ b ∈ l ++ [a0] ++ seg ++ [a], b.turn.Sound) ∧ a0.turn.op = .csInit (some ⟨true⟩) ∧
    (∀ b ∈ seg, b.registers = false) ∧ a.turn.op = .csTimeReq true 1722419302 0 ∧ a.val = enumVal 0 ∧ (corrected seg).length = 1 ∧ (owed true seg).length = 9 := by
  obtain ⟨hl, hr, hv, -, hc, ho, -⟩ := sync_facts
  obtain ⟨m, h, hs, ht⟩ := sync_by sync_valid sync_sound hl
  have hcut := cut_at (syncSeen syncTurns) 2 5 (by decide) (by rw [hl])
  rw [hcut] at h hs
  refine ⟨_, _, _, _, m, h, hs, by rw [sync_turn ht]; rfl, hr, by rw [sync_turn ht]; rfl, ?_, by rw [hc]; rfl, by rw [ho]; rfl⟩
  have := hv _ (List.mem_drop_iff_getElem.mpr ⟨0, by rw [hl]; decide, rfl⟩)
  exact eq_of_beq this

/-- **C150** Whether answers are pending, and sending them again: the answers to the last packet received without error go out on port 202 as they are; without any, nothing is done. -/
theorem C150_text_answers {l seg : List SSeen} {a0 a : SSeen} {m : SMem} (h : SRan E (l ++ [a0] ++ seg ++ [a]) m) (hs : ∀ b ∈ l ++ [a0] ++ seg ++ [a], b.turn.Sound)
    {cb : CsCbs} (h0 : a0.turn.op = .csInit (some cb)) (hseg : ∀ b ∈ seg, b.registers = false) :
    (a.turn.op = .csIsPending → a.val = boolVal (!(owed cb.period seg).isEmpty) ∧ a.ev = []) ∧
    (∀ rnd, a.turn.op = .csSendAnsw rnd → if owed cb.period seg = [] then a.val = enumVal 1 ∧ a.ev = [] else ∃ ev : List Ev, a.ev = .cs (.sendFrame 202 (owed cb.period seg) false) :: ev.map .st) := by
  obtain ⟨log, i, s, hh, ⟨⟨bat, ho⟩, hval, hev⟩, hview⟩ := since_registered h hs h0 hseg
  obtain ⟨s0, hh0, -, -, hv, hst⟩ := hh.last
  refine ⟨fun hop => ?_, fun rnd hop => ?_⟩
  · rw [hop] at ho
    rw [ho] at hst
    have hst' := hst.symm.trans (C69_pending hh0)
    simp only [Except.ok.injEq, Prod.mk.injEq] at hst'
    rw [hval, hev, hst'.1, hst'.2.2, hview]
    exact ⟨rfl, rfl⟩
  · rw [hop] at ho
    rw [ho] at hst
    split
    · have hst' := hst.symm.trans (C69_none hh0 (by rw [hview]; assumption) _)
      simp only [Except.ok.injEq, Prod.mk.injEq] at hst'
      rw [hval, hev, hst'.1, hst'.2.2]
      exact ⟨rfl, rfl⟩
    · obtain ⟨r, st, ev, -, h2⟩ := C69_resend hh0 (by rw [hview]; assumption) (a.turn.rands[0]?.getD 0)
      have hst' := hst.symm.trans h2
      simp only [Except.ok.injEq, Prod.mk.injEq] at hst'
      rw [hev, hst'.2.2, hview]
      exact ⟨ev, rfl⟩

/-- Before the request of the day `uwan_clock_sync_is_answ_pending` says true. -/
example : ∀ b ∈ ((syncSeen syncTurns).take 5).drop 4, b.val == boolVal true := sync_facts.2.2.2.1

end Uwan.C
