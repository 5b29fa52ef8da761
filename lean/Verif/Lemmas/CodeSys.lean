import Verif.Lemmas.CodeHandle
import Verif.Lemmas.CodeHist
import Verif.Lemmas.SyncHist

/-! # Histories of the text of the stack and the clock synchronisation package are histories of the model -/

namespace Uwan.C

theorem encCs_filter (c : Cs) (buf : Bytes) (n : Nat) (period : Bool) (args : Objs) :
    (encCs c buf n period args).filter (fun o => !isPkt o) = encCs c buf n period (args.filter (fun o => !isPkt o)) := by
  unfold encCs watchObjs
  simp only [List.filter_append]
  rfl

theorem encCs_append (c : Cs) (buf : Bytes) (n : Nat) (period : Bool) (args l : Objs) : encCs c buf n period args ++ l = encCs c buf n period (args ++ l) := by
  unfold encCs
  simp only [List.append_assoc]

theorem watch_over (c : Cs) (buf : Bytes) (n : Nat) (period period' : Bool) (args : Objs) : (watchObjs period').over (encCs c buf n period args) = encCs c buf n period' args := (rfl)

/-- Memory of the package between two calls. -/
structure Idle (c : Cs) (g : Objs) (buf : Bytes) (n : Nat) (period : Bool) (args : Objs) : Prop where
  glob : g = encCs c buf n period args
  args : args.filter (fun o => !isPkt o) = []
  stored : Stored c buf n
  table : Table c period

/-- Memory in which the program may be between two calls. -/
structure SRest (s : Sys) (x : Extra) (g : Objs) : Prop where
  stack : Rest s.stack x
  idle : ∃ buf n period args, Idle s.cs g buf n period args

theorem store_other {c : Cs} {g : Objs} {buf : Bytes} {n : Nat} {period : Bool} {args : Objs} (h : Idle c g buf n period args) (l : Objs) :
    g.filter (fun o => !isPkt o) ++ l = encCs c buf n period l := by
  rw [h.glob, encCs_filter, h.args, encCs_append, List.nil_append]

theorem send_ret {E : Env} {s s' : St} {p : Byte} {l : Bytes} {c : Bool} {rnd : Nat} {r : Ret} {ev : List Ev} (h : step E s (.send p l c rnd) = .ok (r, s', ev)) : ∃ e, r = .err e := by
  simp only [step, bind, Except.bind] at h
  split at h
  · cases h
  · cases h
    exact ⟨_, rfl⟩

theorem err_small (e : Err) : Err.num e < 4294967296 := by cases e <;> decide

/-- A call of `uwan_send_frame` by the package. -/
theorem send_text (L k : Nat) (hL : 256 ≤ L) (t : STurn) (hv : t.Valid E) (s : St) (x : Extra) (h : Rest s x) (w : World) (pld : Bytes) (hp : pld.length ≤ 255) :
    ∃ e s' ev x' w', step E s (.send 202 pld false (t.rands[0]?.getD 0)) = .ok (.err e, s', ev) ∧
      (t.toStack (.send 202 pld false 0)).run L (k + 9) ⟨enc s x, [], w⟩ = .ok (enumVal (Err.num e), ⟨enc s' x', [], w'⟩) ∧ Rest s' x' ∧ w'.ev.drop w.ev.length = ev := by
  have hval : (t.toStack (.send 202 pld false 0)).Valid E := ⟨hp, hv.env, hv.rands, hv.small, hv.bats⟩
  rcases turn_text L k hL E (t.toStack (.send 202 pld false 0)) hval s x h w with ⟨op, r, s', ev, x', w', ⟨bat, his⟩, hop, hs, hr, hre, hev⟩ | ⟨op, u, ⟨bat, his⟩, hop, hs, -⟩
  · rw [his] at hs
    obtain ⟨e, rfl⟩ := send_ret hs
    exact ⟨e, s', ev, x', w', hs, hr, hre, by rw [hev]; simp⟩
  · rcases step_ok E h.inv hop with ⟨r2, s2, ev2, h2, -⟩ | ⟨htr, -⟩
    · rw [hs] at h2; cases h2
    · rw [his] at htr; exact htr.elim

/-- One call from outside. -/
theorem sturn_text (L k : Nat) (hL : 513 ≤ L) (E : Env) (t : STurn) (hv : t.Valid E) (s : Sys) (x : Extra) (g : Objs) (h : SRest s x g) (w : World) :
    (∃ op r s' ev x' g' w', t.Is op ∧ op.Valid ∧ sysStep E s op = .ok (r, s', ev) ∧ t.run L (k + 9) ⟨⟨enc s.stack x, [], w⟩, g⟩ = .ok (Ret.val r, ⟨⟨enc s'.stack x', [], w'⟩, g'⟩, ev) ∧ SRest s' x' g') ∨
    (∃ op u, t.Is op ∧ op.Valid ∧ sysStep E s op = .error u ∧
      ((∃ f, t.run L (k + 9) ⟨⟨enc s.stack x, [], w⟩, g⟩ = .error f) ∨ ∃ v m ev, t.run L (k + 9) ⟨⟨enc s.stack x, [], w⟩, g⟩ = .ok (v, m, ev) ∧ .cs .ubShift ∈ ev ∧ ∃ err port data tail unix, t.op = .csHandle err port data tail unix)) := by
  obtain ⟨hst, buf, n, period, args, hi⟩ := h
  have hv0 := hv
  obtain ⟨hop, henv, hr, hsm, hb⟩ := hv0
  have bat : Answers t.bats := .first hb
  obtain ⟨op, mt, I, rs, bs⟩ := t
  simp only at hop henv hr hsm hb bat
  cases op with
  | stack op =>
    have hval : ((⟨.stack op, mt, I, rs, bs⟩ : STurn).toStack op).Valid E := ⟨hop, henv, hr, hsm, hb⟩
    rcases turn_text L k (by omega) E _ hval s.stack x hst w with ⟨op', r, s', ev, x', w', ⟨bat', his⟩, hop', hs, hr', hre, hev⟩ | ⟨op', u, ⟨bat', his⟩, hop', hs, hr'⟩
    · refine .inl ⟨.stack op', r, { s with stack := s' }, ev.map .st, x', g, w', ⟨bat', by rw [his]; rfl⟩, hop', ?_, ?_, ⟨hre, buf, n, period, args, hi⟩⟩
      · simp only [sysStep, hs, bind, Except.bind]
      · unfold STurn.run
        simp only [hr']
        rw [hev]
        simp
    · refine .inr ⟨.stack op', u, ⟨bat', by rw [his]; rfl⟩, hop', ?_, .inl ⟨.null, ?_⟩⟩
      · simp only [sysStep, hs, bind, Except.bind]
      · unfold STurn.run
        simp only [hr']
  | csInit cbs =>
    cases cbs with
    | none =>
      have hc := crun_init_null (fun port l confirm => ((⟨.csInit none, mt, I, rs, bs⟩ : STurn).toStack (.send port l confirm 0)).run L (k + 9)) L (k + 8) s.cs buf n period [] [] ⟨0, [], ⟨enc s.stack x, [], w⟩⟩
      refine .inl ⟨.csInit none, .unit, { s with cs := csInit s.cs none }, [], x, encCs (csInit s.cs none) buf 0 period [], w, ⟨bat, rfl⟩, trivial, rfl, ?_, ⟨hst, buf, 0, period, [], rfl, rfl, ⟨hi.stored.len, by omega, by simp [csInit]⟩, ?_⟩⟩
      · unfold STurn.run
        simp only [SOp.store, SOp.args]
        rw [store_other hi]
        simp only [SOp.fn, SOp.vals, SOp.unix, hc]
        rfl
      · intro cb hcb
        cases hcb
    | some cb =>
      have hc := crun_init (fun port l confirm => ((⟨.csInit (some cb), mt, I, rs, bs⟩ : STurn).toStack (.send port l confirm 0)).run L (k + 9)) L (k + 8) s.cs buf n cb.period [] [] ⟨0, [], ⟨enc s.stack x, [], w⟩⟩ cb
      refine .inl ⟨.csInit (some cb), .unit, { s with cs := csInit s.cs (some cb) }, [], x, encCs (csInit s.cs (some cb)) buf 0 cb.period [], w, ⟨bat, rfl⟩, trivial, rfl, ?_, ⟨hst, buf, 0, cb.period, [], rfl, rfl, ⟨hi.stored.len, by omega, by simp [csInit]⟩, ?_⟩⟩
      · unfold STurn.run
        simp only [SOp.store, SOp.args]
        rw [hi.glob, watch_over, encCs_filter, hi.args, List.append_nil]
        simp only [SOp.fn, SOp.vals, SOp.unix, hc]
        rfl
      · intro cb' hcb
        cases hcb
        rfl
  | csHandle err port data tail unix =>
    have hdl : data.length ≤ 255 := hop
    have hsz : (BitVec.ofNat 8 data.length : Byte).toNat = data.length := by
      rw [BitVec.toNat_ofNat]
      omega
    have hh := handle_text (fun port' l confirm => ((⟨.csHandle err port data tail unix, mt, I, rs, bs⟩ : STurn).toStack (.send port' l confirm 0)).run L (k + 9)) L (k + 6) s.cs buf n port (data ++ tail)
      (BitVec.ofNat 8 data.length) [] ⟨unix, [], ⟨enc s.stack x, [], w⟩⟩ err (u32Val mt) period hi.stored hi.table (by rw [hsz]; simp) hL ⟨mt, rfl⟩
    have hq := csHandle_quiet (c := s.cs) (err := err) (port := port) (tail := tail) (unix := unix) hdl
    rw [hsz] at hh
    simp only at hh
    cases hcs : csHandle s.cs err port (data ++ tail) (BitVec.ofNat 8 data.length) unix with
    | ok r =>
      rw [hcs] at hh
      obtain ⟨buf', n', h1, h2, h3⟩ := hh
      refine .inl ⟨.csHandle err port data tail unix, .unit, { s with cs := r.1 }, r.2.map .cs, x, _, w, ⟨bat, rfl⟩, hop, ?_, ?_, ⟨hst, buf', n', period, packetObjs port data.length (data ++ tail), rfl, rfl, h1, ?_⟩⟩
      · simp only [sysStep, hcs, bind, Except.bind]
      · unfold STurn.run
        simp only [SOp.store, SOp.args]
        rw [store_other hi]
        simp only [SOp.fn, SOp.vals, SOp.unix, h3]
        rfl
      · intro cb hcb
        exact hi.table cb (by rw [← h2]; exact hcb)
    | error u =>
      rw [hcs] at hh hq
      refine .inr ⟨.csHandle err port data tail unix, u, ⟨bat, rfl⟩, hop, ?_, ?_⟩
      · simp only [sysStep, hcs, bind, Except.bind]
      · have hrun : (⟨.csHandle err port data tail unix, mt, I, rs, bs⟩ : STurn).run L (k + 9) ⟨⟨enc s.stack x, [], w⟩, g⟩ = match call (clockHost fun port' l confirm => ((⟨.csHandle err port data tail unix, mt, I, rs, bs⟩ : STurn).toStack (.send port' l confirm 0)).run L (k + 9)) Src.clockProg L (k + 9) "uwan_clock_sync_handle_time_answ" [enumVal (Err.num err), u32Val mt, globPtr "pkt"]
            ⟨encCs s.cs buf n period (packetObjs port data.length (data ++ tail)), [], ⟨unix, [], ⟨enc s.stack x, [], w⟩⟩⟩ with
          | .error f => .error f
          | .ok (v, m') => .ok (v, ⟨m'.io.stack, m'.glob⟩, m'.io.ev) := by
          unfold STurn.run
          simp only [SOp.store, SOp.args]
          rw [store_other hi]
          rfl
        rw [hrun]
        rcases hh hq with ⟨f, hf⟩ | ⟨g', w', hw, hf⟩
        · rw [hf]
          exact .inl ⟨f, rfl⟩
        · rw [hf]
          exact .inr ⟨_, _, _, rfl, hw, err, port, data, tail, unix, rfl⟩
  | csTimeReq a unix rnd =>
    cases hcb : s.cs.cbs with
    | none =>
      have hc := crun_time_req_none (fun port l confirm => ((⟨.csTimeReq a unix rnd, mt, I, rs, bs⟩ : STurn).toStack (.send port l confirm 0)).run L (k + 9)) L (k + 7) s.cs buf n period [] [] ⟨unix, [], ⟨enc s.stack x, [], w⟩⟩ hcb a
      refine .inl ⟨.csTimeReq a unix (rs[0]?.getD 0), .err .state, s, [], x, encCs s.cs buf n period [], w, ⟨bat, rfl⟩, trivial, ?_, ?_, ⟨hst, buf, n, period, [], rfl, rfl, hi.stored, hi.table⟩⟩
      · simp only [sysStep, csTimeReq, hcb, bind, Except.bind]
      · unfold STurn.run
        simp only [SOp.store, SOp.args]
        rw [store_other hi]
        simp only [SOp.fn, SOp.vals, SOp.unix, hc]
        rfl
    | some cb =>
      have hlen : (if s.cs.ansPending then buf.take n else []).length ≤ 9 := by
        have := hi.stored.small
        split
        · rw [List.length_take]; omega
        · simp
      obtain ⟨e, s', ev, x', w', hs, hrun, hre, hev⟩ := send_text L k (by omega) ⟨.csTimeReq a unix rnd, mt, I, rs, bs⟩ ⟨hop, henv, hr, hsm, hb⟩ s.stack x hst w
        ((if s.cs.ansPending then buf.take n else []) ++ [0x1] ++ gpsBytes unix ++ [s.cs.token ||| (if a then 0x10 else 0)]) (by
          simp only [List.length_append, gpsBytes, List.length_cons, List.length_nil]
          omega)
      have hc := crun_time_req (fun port l confirm => ((⟨.csTimeReq a unix rnd, mt, I, rs, bs⟩ : STurn).toStack (.send port l confirm 0)).run L (k + 9)) L (k + 7) s.cs buf n period [] [] ⟨unix, [], ⟨enc s.stack x, [], w⟩⟩ a
        (by rw [hcb]; rfl) hi.stored.small hi.stored.len (err_small e) rfl hrun
      have hmod : csTimeReq s.cs a unix = .ok ({ s.cs with reqPending := true }, some ((if s.cs.ansPending then buf.take n else []) ++ [0x1] ++ gpsBytes unix ++ [s.cs.token ||| (if a then 0x10 else 0)])) := by
        unfold csTimeReq
        simp only [hcb, hi.stored.ans]
        rw [if_neg (by omega)]
        rw [if_neg (by omega)]
      refine .inl ⟨.csTimeReq a unix (rs[0]?.getD 0), .err e, ⟨s', { s.cs with reqPending := true }⟩, .cs .getTime :: .cs (.sendFrame 202 ((if s.cs.ansPending then buf.take n else []) ++ [0x1] ++ gpsBytes unix ++ [s.cs.token ||| (if a then 0x10 else 0)]) false) :: ev.map .st, x', encCs { s.cs with reqPending := true } buf n period [], w', ⟨bat, rfl⟩, trivial, ?_, ?_,
        ⟨hre, buf, n, period, [], rfl, rfl, ⟨hi.stored.len, hi.stored.small, hi.stored.ans⟩, hi.table⟩⟩
      · simp only at hs
        simp only [sysStep, hmod, csSend, hs, bind, Except.bind]
      · unfold STurn.run
        simp only [SOp.store, SOp.args]
        rw [store_other hi]
        simp only [SOp.fn, SOp.vals, SOp.unix, hc]
        rw [hev]
        rfl
  | csIsPending =>
    have hc := crun_pending (fun port l confirm => ((⟨.csIsPending, mt, I, rs, bs⟩ : STurn).toStack (.send port l confirm 0)).run L (k + 9)) L (k + 8) s.cs buf n period [] [] ⟨0, [], ⟨enc s.stack x, [], w⟩⟩
    refine .inl ⟨.csIsPending, .bool s.cs.ansPending, s, [], x, encCs s.cs buf n period [], w, ⟨bat, rfl⟩, trivial, rfl, ?_, ⟨hst, buf, n, period, [], rfl, rfl, hi.stored, hi.table⟩⟩
    unfold STurn.run
    simp only [SOp.store, SOp.args]
    rw [store_other hi]
    simp only [SOp.fn, SOp.vals, SOp.unix, hc]
    rfl
  | csSendAnsw rnd =>
    cases hp : s.cs.ansPending with
    | false =>
      have hc := crun_send_answ_not (fun port l confirm => ((⟨.csSendAnsw rnd, mt, I, rs, bs⟩ : STurn).toStack (.send port l confirm 0)).run L (k + 9)) L (k + 7) s.cs buf n period [] [] ⟨0, [], ⟨enc s.stack x, [], w⟩⟩ hp
      refine .inl ⟨.csSendAnsw (rs[0]?.getD 0), .err .state, s, [], x, encCs s.cs buf n period [], w, ⟨bat, rfl⟩, trivial, ?_, ?_, ⟨hst, buf, n, period, [], rfl, rfl, hi.stored, hi.table⟩⟩
      · simp only [sysStep, hp]
        rfl
      · unfold STurn.run
        simp only [SOp.store, SOp.args]
        rw [store_other hi]
        simp only [SOp.fn, SOp.vals, SOp.unix, hc]
        rfl
    | true =>
      have hn := hi.stored.small
      have hbl := hi.stored.len
      obtain ⟨e, s', ev, x', w', hs, hrun, hre, hev⟩ := send_text L k (by omega) ⟨.csSendAnsw rnd, mt, I, rs, bs⟩ ⟨hop, henv, hr, hsm, hb⟩ s.stack x hst w (buf.take n) (by rw [List.length_take]; omega)
      have hc := crun_send_answ (fun port l confirm => ((⟨.csSendAnsw rnd, mt, I, rs, bs⟩ : STurn).toStack (.send port l confirm 0)).run L (k + 9)) L (k + 7) s.cs buf n period [] [] ⟨0, [], ⟨enc s.stack x, [], w⟩⟩ hp
        (by omega) hbl (err_small e) hrun
      refine .inl ⟨.csSendAnsw (rs[0]?.getD 0), .err e, ⟨s', s.cs⟩, .cs (.sendFrame 202 (buf.take n) false) :: ev.map .st, x', encCs s.cs buf n period [], w', ⟨bat, rfl⟩, trivial, ?_, ?_, ⟨hre, buf, n, period, [], rfl, rfl, hi.stored, hi.table⟩⟩
      · simp only at hs
        simp only [sysStep, hp, csSend, hi.stored.ans, hs, bind, Except.bind, if_true]
      · unfold STurn.run
        simp only [SOp.store, SOp.args]
        rw [store_other hi]
        simp only [SOp.fn, SOp.vals, SOp.unix, hc]
        rw [hev]
        rfl

/-- Calls one after the other. The execution stays a history of the model up to a call for which the model says undefined behaviour; in that call the text stops with a fault, or a shift beyond the range of
`int` is recorded. -/
theorem run_sys (L k : Nat) (hL : 513 ≤ L) (E : Env) (ts : List STurn) (hv : ∀ t ∈ ts, t.Valid E) (s : Sys) (x : Extra) (g : Objs) (h : SRest s x g) (w : World) (log : List SItem) (hl : SHist E log s) :
    (∃ seen more s' x' g' w', SHist E (log ++ more) s' ∧ SShows seen more ∧ seen.map (·.turn) = ts ∧
      runSys L (k + 9) ⟨⟨enc s.stack x, [], w⟩, g⟩ ts = .ok (seen, ⟨⟨enc s'.stack x', [], w'⟩, g'⟩) ∧ SRest s' x' g') ∨
    (∃ done t rest seen more s' x' g' w' op u, ts = done ++ t :: rest ∧ SHist E (log ++ more) s' ∧ SShows seen more ∧ seen.map (·.turn) = done ∧
      runSys L (k + 9) ⟨⟨enc s.stack x, [], w⟩, g⟩ done = .ok (seen, ⟨⟨enc s'.stack x', [], w'⟩, g'⟩) ∧ SRest s' x' g' ∧ t.Is op ∧ op.Valid ∧ sysStep E s' op = .error u ∧
      ((∃ f, runSys L (k + 9) ⟨⟨enc s.stack x, [], w⟩, g⟩ (done ++ [t]) = .error f) ∨
        ∃ v ev m, runSys L (k + 9) ⟨⟨enc s.stack x, [], w⟩, g⟩ (done ++ [t]) = .ok (seen ++ [⟨t, v, ev⟩], m) ∧ .cs .ubShift ∈ ev ∧ ∃ err port data tail unix, t.op = .csHandle err port data tail unix)) := by
  induction ts generalizing s x g w log with
  | nil => exact .inl ⟨[], [], s, x, g, w, by simpa using hl, .nil, rfl, rfl, h⟩
  | cons t ts ih =>
    rcases sturn_text L k hL E t (hv t (by simp)) s x g h w with ⟨op, r, s1, ev, x1, g1, w1, his, hop, hs, hr, h1⟩ | ⟨op, u, his, hop, hs, hr⟩
    · have hof : SSeen.Of ⟨t, Ret.val r, ev⟩ ⟨s, op, r, ev, s1⟩ := ⟨his, rfl, rfl⟩
      rcases ih (fun t ht => hv t (by simp [ht])) s1 x1 g1 h1 w1 (log ++ [⟨s, op, r, ev, s1⟩]) (.snoc hl hop hs) with
        ⟨seen, more, s', x', g', w', hseg, hall, rfl, hrun, hrest⟩ | ⟨done, t', rest, seen, more, s', x', g', w', op', u, rfl, hseg, hall, rfl, hdone, hrest, his', hop', hs', hrun⟩
      · refine .inl ⟨_, ⟨s, op, r, ev, s1⟩ :: more, s', x', g', w', by simpa using hseg, .cons hof hall, rfl, ?_, hrest⟩
        unfold runSys
        rw [hr]
        simp only [hrun]
      · refine .inr ⟨t :: seen.map (·.turn), t', rest, _, ⟨s, op, r, ev, s1⟩ :: more, s', x', g', w', op', u, rfl, by simpa using hseg, .cons hof hall, rfl, ?_, hrest, his', hop', hs', ?_⟩
        · unfold runSys
          rw [hr]
          simp only [hdone]
        · rcases hrun with ⟨f, hf⟩ | ⟨v, ev', m, hf, hm⟩
          · refine .inl ⟨f, ?_⟩
            rw [List.cons_append]
            unfold runSys
            rw [hr]
            simp only [hf]
          · refine .inr ⟨v, ev', m, ?_, hm⟩
            rw [List.cons_append]
            unfold runSys
            rw [hr]
            simp only [hf]
            rfl
    · refine .inr ⟨[], t, ts, [], [], s, x, g, w, op, u, rfl, by simpa using hl, .nil, rfl, rfl, h, his, hop, hs, ?_⟩
      rcases hr with ⟨f, hf⟩ | ⟨v, m, ev, hf, hm⟩
      · refine .inl ⟨f, ?_⟩
        rw [List.nil_append]
        unfold runSys
        rw [hf]
      · refine .inr ⟨v, ev, m, ?_, hm⟩
        rw [List.nil_append]
        unfold runSys
        rw [hf]
        rfl

theorem startSys_enc (c : Block × Bytes) : startSys c = ⟨⟨enc .boot .boot, [], ⟨[], [], c, []⟩⟩, encCs .boot (List.replicate 32 0) 0 false []⟩ := by
  unfold startSys
  rw [start_enc]
  rfl

theorem srest_boot : SRest ⟨.boot, .boot⟩ .boot (encCs .boot (List.replicate 32 0) 0 false []) :=
  ⟨rest_boot, _, _, _, _, rfl, rfl, ⟨rfl, by decide, rfl⟩, fun _ h => by cases h⟩

end Uwan.C
