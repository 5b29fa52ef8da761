import Verif.Code.Run
import Verif.Lemmas.CodeStep
import Verif.Model.History

/-! # Histories of the program text are histories of the model -/

namespace Uwan.C

/-- Memory in which the program may be between two calls. -/
structure Rest (s : St) (x : Extra) : Prop where
  inv : Inv s
  queue : s.mac.queue.length + x.macTail.length = 15
  args : x.args = []
  clock : x.clock.filter (fun o => !isArg o) = Src.clockSyncVars

theorem enc_filter (s : St) (x : Extra) (h : x.args = []) : (enc s x).filter (fun o => !isArg o) = enc s { x with clock := x.clock.filter (fun o => !isArg o) } := by
  unfold enc
  simp only [List.filter_append, h]
  rfl

theorem enc_append (s : St) (x : Extra) (l : Objs) : enc s x ++ l = enc s { x with clock := x.clock ++ l } := by
  unfold enc
  simp only [List.append_assoc]

theorem put_cbs (s : St) (x : Extra) (c : MacCbs) : (cbsObjs c).over (enc s x) =
    enc { s with mac := { s.mac with cbs := s.mac.cbs.map fun _ => c } } { x with cbs := c } := by
  match s with
  | { mac := { cbs := none, .. }, .. } => rfl
  | { mac := { cbs := some _, .. }, .. } => rfl

/-- The state of the model once the application has written its memory. -/
def ready (op : Op) (s : St) : St :=
  match op with
  | .macSetHandlers (some c) => { s with mac := { s.mac with cbs := s.mac.cbs.map fun _ => c } }
  | _ => s

def readyExtra (op : Op) (x : Extra) : Extra :=
  match op with
  | .macSetHandlers (some c) => { x with cbs := c, clock := Src.clockSyncVars ++ Op.args op }
  | _ => { x with clock := Src.clockSyncVars ++ Op.args op }

theorem store_enc (op : Op) (s : St) (x : Extra) (h : Rest s x) : Op.store op (enc s x) = enc (ready op s) (readyExtra op x) := by
  have hother : (enc s x).filter (fun o => !isArg o) ++ Op.args op = enc s { x with clock := Src.clockSyncVars ++ Op.args op } := by
    rw [enc_filter s x h.args, h.clock, enc_append]
  cases op with
  | macSetHandlers c =>
    cases c with
    | none => exact hother
    | some c =>
      show ((cbsObjs c).over (enc s x)).filter (fun o => !isArg o) ++ _ = _
      rw [put_cbs, enc_filter _ { x with cbs := c } h.args, enc_append]
      show enc _ { x with cbs := c, clock := x.clock.filter (fun o => !isArg o) ++ _ } = _
      rw [h.clock]
      rfl
  | _ => exact hother

theorem clock_filter (op : Op) : (Src.clockSyncVars ++ Op.args op).filter (fun o => !isArg o) = Src.clockSyncVars := by
  rw [List.filter_append]
  have h1 : Src.clockSyncVars.filter (fun o => !isArg o) = Src.clockSyncVars := by decide +kernel
  have h2 : (Op.args op).filter (fun o => !isArg o) = [] := by cases op <;> rfl
  rw [h1, h2, List.append_nil]

theorem readyExtra_clock (op : Op) (x : Extra) : (readyExtra op x).clock = Src.clockSyncVars ++ Op.args op ∧ (readyExtra op x).args = x.args ∧ (readyExtra op x).macTail = x.macTail := by
  unfold readyExtra
  split <;> exact ⟨rfl, rfl, rfl⟩

theorem ready_inv {s : St} (h : Inv s) (op : Op) : Inv (ready op s) := by
  unfold ready
  split
  · exact { h with }
  · exact h

theorem ready_queue (op : Op) (s : St) : (ready op s).mac.queue = s.mac.queue := by
  unfold ready
  split <;> rfl

theorem ready_step (E : Env) (I : Input) (l : List Nat) (bat : Nat → Byte) (op : Op) (s : St) : step E (ready op s) (Op.answered I l bat op) = step E s (Op.answered I l bat op) := by
  cases op with
  | macSetHandlers c => cases c <;> rfl
  | _ => rfl

theorem args_there (op : Op) (x : Extra) (hx : x.args = []) (s' : St) (q : Bytes) (o : String) (v : List Val) (h : (o, v) ∈ Op.args op) :
    (enc s' { readyExtra op x with macTail := q }).get o = some v := by
  have hcl := (readyExtra_clock op x).1
  have har := (readyExtra_clock op x).2.1
  rw [hx] at har
  generalize readyExtra op x = y at *
  obtain ⟨mt, cb, cl, ar⟩ := y
  subst hcl har
  cases op with
  | setOtaaKeys d a k =>
    simp only [Op.args, List.mem_cons, Prod.mk.injEq, List.not_mem_nil, or_false] at h
    rcases h with ⟨rfl, rfl⟩ | ⟨rfl, rfl⟩ | ⟨rfl, rfl⟩ <;> rfl
  | setSession _ _ _ n a =>
    simp only [Op.args, List.mem_cons, Prod.mk.injEq, List.not_mem_nil, or_false] at h
    rcases h with ⟨rfl, rfl⟩ | ⟨rfl, rfl⟩ <;> rfl
  | send _ l _ _ =>
    simp only [Op.args, List.mem_cons, Prod.mk.injEq, List.not_mem_nil, or_false] at h
    rcases h with ⟨rfl, rfl⟩
    rfl
  | _ => cases h

/-- One call from outside. -/
theorem turn_text (L k : Nat) (hL : 256 ≤ L) (E : Env) (t : Turn) (hv : t.Valid E) (s : St) (x : Extra) (h : Rest s x) (w : World) :
    (∃ op r s' ev x' w', t.Is op ∧ op.Valid ∧ step E s op = .ok (r, s', ev) ∧ t.run L (k + 9) ⟨enc s x, [], w⟩ = .ok (Ret.val r, ⟨enc s' x', [], w'⟩) ∧ Rest s' x' ∧ w'.ev = w.ev ++ ev) ∨
    (∃ op u, t.Is op ∧ op.Valid ∧ step E s op = .error u ∧ t.run L (k + 9) ⟨enc s x, [], w⟩ = .error Fault.null) := by
  obtain ⟨hop, rfl, hr, hsm, hb⟩ := hv
  obtain ⟨hcl, har, hmt⟩ := readyExtra_clock t.op x
  have hrun : t.run L (k + 9) ⟨enc s x, [], w⟩ = call (host t.input) Src.prog L (k + 9) (Op.fn t.op) (Op.vals t.op) ⟨enc (ready t.op s) (readyExtra t.op x), [], { w with rands := t.rands, bats := t.bats }⟩ := by
    unfold Turn.run
    rw [store_enc t.op s x h]
  rw [hrun]
  rcases step_text t.input L k (ready t.op s) (readyExtra t.op x) { w with rands := t.rands, bats := t.bats } hL (ready_inv h.inv t.op) (by rw [ready_queue, hmt]; exact h.queue) t.op hop hr hsm hb
    (args_there t.op x h.args) (by
      intro c hc
      rw [hc]
      show (s.mac.cbs.map fun _ => c).getD c = c
      cases s.mac.cbs <;> rfl) with ⟨bat, r, s', ev, x', w', hs, hc, ha⟩ | ⟨bat, u, hs, hc⟩
  · rw [ready_step] at hs
    refine .inl ⟨_, r, s', ev, x', w', ⟨bat, rfl⟩, Op.answered_valid _ _ _ _ hop, hs, hc, ⟨?_, ha.queue, ?_, ?_⟩, ha.said⟩
    · rcases step_ok t.input.env h.inv (Op.answered_valid t.input t.rands bat.1 t.op hop) with ⟨r2, s2, ev2, h2, hi2⟩ | ⟨-, h2⟩
      · rw [hs] at h2
        cases h2
        exact hi2
      · rw [hs] at h2
        cases h2
    · rw [ha.args, har]; exact h.args
    · rw [ha.clock, hcl]; exact clock_filter t.op
  · rw [ready_step] at hs
    exact .inr ⟨_, u, ⟨bat, rfl⟩, Op.answered_valid _ _ _ _ hop, hs, hc⟩

/-- What a history of the program text is in the model, starting after the history `log`. -/
theorem run_text (L k : Nat) (hL : 256 ≤ L) (E : Env) (ts : List Turn) (hv : ∀ t ∈ ts, t.Valid E) (s : St) (x : Extra) (h : Rest s x) (w : World) (z : St) (log : List Item) (hl : Seg E z log s) :
    (∃ seen more s' x' w', Seg E z (log ++ more) s' ∧ Shows seen more ∧ seen.map (·.turn) = ts ∧ runText L (k + 9) ⟨enc s x, [], w⟩ ts = .ok (seen, ⟨enc s' x', [], w'⟩) ∧
      Rest s' x' ∧ w'.ev = w.ev ++ trace more) ∨
    (∃ done t rest seen more s' x' w' op u, ts = done ++ t :: rest ∧ Seg E z (log ++ more) s' ∧ Shows seen more ∧
      runText L (k + 9) ⟨enc s x, [], w⟩ done = .ok (seen, ⟨enc s' x', [], w'⟩) ∧ t.Is op ∧ op.Valid ∧ step E s' op = .error u ∧
      runText L (k + 9) ⟨enc s x, [], w⟩ ts = .error Fault.null) := by
  induction ts generalizing s x w log with
  | nil => exact .inl ⟨[], [], s, x, w, by simpa using hl, .nil, rfl, rfl, h, by simp [trace]⟩
  | cons t ts ih =>
    rcases turn_text L k hL E t (hv t (by simp)) s x h w with ⟨op, r, s1, ev, x1, w1, his, hop, hs, hr, h1, hev⟩ | ⟨op, u, his, hop, hs, hr⟩
    · have hdrop : w1.ev.drop w.ev.length = ev := by rw [hev]; simp
      have hof : Seen.Of ⟨t, Ret.val r, w1.ev.drop w.ev.length⟩ ⟨s, op, r, ev, s1⟩ := ⟨his, rfl, hdrop⟩
      rcases ih (fun t ht => hv t (by simp [ht])) s1 x1 h1 w1 (log ++ [⟨s, op, r, ev, s1⟩]) (.snoc hl hop hs) with
        ⟨seen, more, s', x', w', hseg, hall, rfl, hrun, hrest, hev'⟩ | ⟨done, t', rest, seen, more, s', x', w', op', u, rfl, hseg, hall, hdone, his', hop', hs', hrun⟩
      · refine .inl ⟨_, ⟨s, op, r, ev, s1⟩ :: more, s', x', w', by simpa using hseg, .cons hof hall, rfl, ?_, hrest, ?_⟩
        · unfold runText
          rw [hr]
          simp only [hrun]
        · rw [hev', hev]
          simp [trace]
      · refine .inr ⟨t :: done, t', rest, _, ⟨s, op, r, ev, s1⟩ :: more, s', x', w', op', u, rfl, by simpa using hseg, .cons hof hall, ?_, his', hop', hs', ?_⟩
        · unfold runText
          rw [hr]
          simp only [hdone]
        · unfold runText
          rw [hr]
          simp only [hrun]
    · refine .inr ⟨[], t, ts, [], [], s, x, w, op, u, rfl, by simpa using hl, .nil, rfl, his, hop, hs, ?_⟩
      unfold runText
      rw [hr]

theorem start_enc (c : Block × Bytes) : start c = ⟨enc .boot .boot, [], ⟨[], [], c, []⟩⟩ := by
  unfold start
  rw [enc_boot]
  rfl

theorem rest_boot : Rest .boot .boot := ⟨Inv.boot, by decide, rfl, by decide +kernel⟩

end Uwan.C
