import Verif.Spec.Manager
import Verif.Props.Queue
import Verif.Props.Forged

/-!
# C128: the network's record of the settings
-/

namespace Uwan
open Spec

variable {E : Env} {log : List Item} {it : Item} {s' : St}

theorem answer_room {c : Cfg} {l : Bytes} (h : c.queue.length + l.length ≤ 15) : c.answer l = (true, { c with queue := c.queue ++ l }) := by
  unfold Cfg.answer; rw [if_pos h]

theorem bits_lt : ∀ p q r : Bool, (bits p q r).toNat % 8 = 7 ↔ (p && q && r) = true := by decide
theorem bits_lt2 : ∀ p q : Bool, (bits p q false).toNat % 4 = 3 ↔ (p && q) = true := by decide

/-- The effect of an answered command, told by its answer. -/
structure Told (c c' : Cfg) (cmd : Cmd) (b : Bytes) (u : Up) : Prop where
  queue : c'.queue = c.queue ++ b
  read : ∀ r, readUp (b ++ r) = u :: readUp r
  answer : u.isAnswer = true
  says : (u.says cmd = some true ∧ Settings.of c' = (Settings.of c).done cmd) ∨ (u.says cmd = some false ∧ Settings.of c' = Settings.of c)

theorem exec_told (c : Cfg) (x : Byte) {cmd : Cmd} {i : Byte} {n : Nat} (ha : cmd.answer = some (i, n)) (hr : c.queue.length + n ≤ 15) (hp : cmd.proper) :
    ∃ b u, b.length = n ∧ (c.exec x cmd).1 = true ∧ Told c (c.exec x cmd).2.1 cmd b u := by
  cases cmd with
  | linkAdrReq dr pow mask cntl nb =>
    cases ha
    refine ⟨[3, (c.linkAdr dr pow mask cntl nb).1], .linkAdrAns (c.linkAdr dr pow mask cntl nb).1.toNat, rfl, ?_⟩
    have hq : (c.linkAdr dr pow mask cntl nb).2.queue = c.queue := by unfold Cfg.linkAdr; simp only; split <;> rfl
    unfold Cfg.exec
    simp only
    rw [answer_room (by rw [hq]; exact hr)]
    refine ⟨rfl, ⟨by simp only [hq], fun r => by simp [readUp], rfl, ?_⟩⟩
    have hb := bits_lt (c.maskOk mask cntl) (dr < 6) (pow < 8)
    cases hk : (c.maskOk mask cntl && decide (dr < 6) && decide (pow < 8)) with
    | true =>
      left
      rw [hk] at hb
      refine ⟨?_, ?_⟩
      · simp only [Up.says, Cfg.linkAdr, hb.mpr rfl, beq_self_eq_true]
      · have h6 : cntl ≠ 6 := by
          rintro rfl
          simp only [Bool.and_eq_true] at hk
          have := hk.1.1
          unfold Cfg.maskOk at this
          rw [show bit 6 2 = true from rfl] at this
          simp at this
        unfold Cfg.linkAdr
        simp only [hk, if_true, Settings.of, Settings.done, if_neg h6, if_neg hp.2]
        congr 1
        funext i
        by_cases hi : i < 16 <;> simp [hi]
    | false =>
      right
      rw [hk] at hb
      refine ⟨?_, ?_⟩
      · simp only [Up.says, Cfg.linkAdr]
        rw [beq_eq_false_iff_ne.mpr (fun h => Bool.noConfusion (hb.mp h))]
      · unfold Cfg.linkAdr
        simp only [hk]
        rfl
  | rxParamSetupReq off dr freq =>
    cases ha
    refine ⟨[5, (c.rxParam off dr freq).1], .rxParamSetupAns (c.rxParam off dr freq).1.toNat, rfl, ?_⟩
    have hq : (c.rxParam off dr freq).2.queue = c.queue := by unfold Cfg.rxParam; simp only; split <;> rfl
    unfold Cfg.exec
    simp only
    rw [answer_room (by rw [hq]; exact hr)]
    refine ⟨rfl, ⟨by simp only [hq], fun r => by simp [readUp], rfl, ?_⟩⟩
    have hb := bits_lt (inBand freq) (dr < 6) (off < 6)
    cases hk : (inBand freq && decide (dr < 6) && decide (off < 6)) with
    | true =>
      left
      rw [hk] at hb
      refine ⟨?_, ?_⟩
      · simp only [Up.says, Cfg.rxParam, hb.mpr rfl, beq_self_eq_true]
      · unfold Cfg.rxParam
        simp only [hk, if_true]
        rfl
    | false =>
      right
      rw [hk] at hb
      refine ⟨?_, ?_⟩
      · simp only [Up.says, Cfg.rxParam]
        rw [beq_eq_false_iff_ne.mpr (fun h => Bool.noConfusion (hb.mp h))]
      · unfold Cfg.rxParam
        simp only [hk]
        rfl
  | newChannelReq idx freq hi lo =>
    cases ha
    refine ⟨[7, (c.newChannel idx freq hi lo).1], .newChannelAns (c.newChannel idx freq hi lo).1.toNat, rfl, ?_⟩
    have hq : (c.newChannel idx freq hi lo).2.queue = c.queue := by
      unfold Cfg.newChannel Cfg.setChannel; simp only; repeat' split
      all_goals rfl
    unfold Cfg.exec
    simp only
    rw [answer_room (by rw [hq]; exact hr)]
    refine ⟨rfl, ⟨by simp only [hq], fun r => by simp [readUp], rfl, ?_⟩⟩
    by_cases hbad : inBand freq = true ∧ decide (hi = 5 ∧ lo = 0) = true ∧ 16 ≤ idx
    · right
      have : c.newChannel idx freq hi lo = (0, c) := by unfold Cfg.newChannel; simp only; rw [if_pos hbad]
      rw [this]
      exact ⟨rfl, rfl⟩
    · have : c.newChannel idx freq hi lo = (bits (inBand freq) (decide (hi = 5 ∧ lo = 0)) false,
          if decide (hi = 5 ∧ lo = 0) = true then c.setChannel idx freq else c) := by unfold Cfg.newChannel; simp only; rw [if_neg hbad]
      rw [this]
      have hb := bits_lt2 (inBand freq) (decide (hi = 5 ∧ lo = 0))
      cases hk : (inBand freq && decide (hi = 5 ∧ lo = 0)) with
      | true =>
        left
        rw [hk] at hb
        rw [Bool.and_eq_true] at hk
        refine ⟨?_, ?_⟩
        · simp only [Up.says, hb.mpr rfl, beq_self_eq_true]
        · simp only [hk.2, if_true]
          unfold Cfg.setChannel
          rw [if_pos ⟨by have := hbad; simp only [hk.1, hk.2, true_and] at this; omega, hk.1⟩]
          rfl
      | false =>
        right
        rw [hk] at hb
        refine ⟨?_, ?_⟩
        · simp only [Up.says]
          rw [beq_eq_false_iff_ne.mpr (fun h => Bool.noConfusion (hb.mp h))]
        · simp only
          split
          · next h =>
            unfold Cfg.setChannel
            rw [h, Bool.and_true] at hk
            rw [hk, if_neg (by simp)]
            rfl
          · rfl
  | dutyCycleReq =>
    cases ha
    refine ⟨[4], .dutyCycleAns, rfl, ?_⟩
    unfold Cfg.exec
    simp only
    rw [answer_room hr]
    exact ⟨rfl, ⟨rfl, fun r => by rw [List.singleton_append, readUp.eq_def]; rfl, rfl, .inl ⟨rfl, rfl⟩⟩⟩
  | devStatusReq =>
    cases ha
    unfold Cfg.exec
    simp only
    rw [answer_room hr]
    refine ⟨_, .devStatusAns (if (c.cbs.map (·.battery)).getD false then x else 255) (.ofInt 8 (c.snr % 64)), rfl, rfl, ⟨rfl, fun r => ?_, rfl, .inl ⟨rfl, rfl⟩⟩⟩
    rw [List.cons_append, List.cons_append, List.singleton_append, readUp.eq_def]
    rfl
  | rxTimingSetupReq d =>
    cases ha
    refine ⟨[8], .rxTimingSetupAns, rfl, ?_⟩
    unfold Cfg.exec
    simp only
    rw [answer_room (by exact hr)]
    exact ⟨rfl, ⟨rfl, fun r => by rw [List.singleton_append, readUp.eq_def]; rfl, rfl, .inl ⟨rfl, rfl⟩⟩⟩
  | linkCheckAns => cases ha
  | txParamSetupReq => cases ha
  | dlChannelReq => cases ha
  | deviceTimeAns => cases ha

theorem exec_untold (c : Cfg) (x : Byte) {cmd : Cmd} (ha : cmd.answer = none) :
    (c.exec x cmd).1 = true ∧ (c.exec x cmd).2.1 = c := by
  cases cmd <;> first | exact ⟨rfl, rfl⟩ | cases ha

/-- The answers in an FOpts field. -/
def answersIn (l : Bytes) : List Up := (readUp l).filter Up.isAnswer

/-- The network reads off the answers what the commands did. -/
theorem learn_exec (bat : Nat → Byte) : ∀ (l : List (Cmd × Nat)) (c : Cfg), c.queue.length + answerBytes (l.map (·.1)) ≤ 15 →
    (∀ x ∈ l, x.1.proper) → ∃ b, (c.execAll bat l).1.queue = c.queue ++ b ∧
      ∀ r, answersIn r = [] → (Settings.of c).learn (l.map (·.1)) (answersIn (b ++ r)) = Settings.of (c.execAll bat l).1
  | [], c, _, _ => ⟨[], by simp [Cfg.execAll], fun r _ => rfl⟩
  | (cmd, n) :: l, c, h, hp => by
    have hb : answerBytes (((cmd, n) :: l).map (·.1)) = (cmd.answer.map (·.2)).getD 0 + answerBytes (l.map (·.1)) := rfl
    rw [hb] at h
    cases ha : cmd.answer with
    | none =>
      obtain ⟨g1, g2⟩ := exec_untold c (bat n) ha
      rw [ha] at h
      obtain ⟨b, h1, h2⟩ := learn_exec bat l c (by simpa using h) fun x hx => hp x (List.mem_cons_of_mem _ hx)
      rw [execAll_cons, if_pos g1]
      simp only [g2]
      refine ⟨b, h1, fun r hr => ?_⟩
      rw [List.map_cons, Settings.learn.eq_def]
      simp only [ha, if_true]
      exact h2 r hr
    | some y =>
      obtain ⟨i, m⟩ := y
      rw [ha] at h
      simp only [Option.map_some, Option.getD_some] at h
      obtain ⟨b, u, hl, g1, T⟩ := exec_told c (bat n) ha (by omega) (hp (cmd, n) List.mem_cons_self)
      obtain ⟨b', h1, h2⟩ := learn_exec bat l (c.exec (bat n) cmd).2.1 (by rw [T.queue, List.length_append]; omega)
        fun x hx => hp x (List.mem_cons_of_mem _ hx)
      rw [execAll_cons, if_pos g1]
      refine ⟨b ++ b', by simp only; rw [h1, T.queue, List.append_assoc], fun r hr => ?_⟩
      have hu : answersIn (b ++ b' ++ r) = u :: answersIn (b' ++ r) := by
        unfold answersIn
        rw [List.append_assoc, T.read, List.filter_cons, if_pos T.answer]
      rw [hu, List.map_cons, Settings.learn.eq_def]
      simp only [ha, reduceCtorEq, if_false]
      have := h2 r hr
      rcases T.says with ⟨h3, h4⟩ | ⟨h3, h4⟩
      · rw [h3]; simp only; rw [← h4]; exact this
      · rw [h3]; simp only; rw [← h4]; exact this

/-! ### Between two uplinks -/

/-- An operation that neither sends a frame nor initialises nor receives a frame whose commands are executed. -/
def quiet (y : Item) : Prop := frameSent y = false ∧ (∀ r, y.op ≠ .init r) ∧ ∀ e, report y.ev = some e → e ≠ .no ∧ e ≠ .msgMic

/-- A request of the application. -/
def asks (y : Item) : Bool :=
  match y.op with
  | .linkCheckReq => true
  | .deviceTimeReq => true
  | _ => false

theorem asks_seg {seg : List Item} : ∀ {s0 s : St}, Hist E log s0 → Hist E (log ++ seg) s → (∀ y ∈ seg, quiet y) →
    ∃ r, s.mac.queue = s0.mac.queue ++ r ∧ (∀ b ∈ r, b = 2 ∨ b = 13) ∧ r.length ≤ (seg.filter asks).length := by
  refine snoc_induction (P := fun seg => ∀ {s0 s : St}, Hist E log s0 → Hist E (log ++ seg) s → (∀ y ∈ seg, quiet y) →
    ∃ r, s.mac.queue = s0.mac.queue ++ r ∧ (∀ b ∈ r, b = 2 ∨ b = 13) ∧ r.length ≤ (seg.filter asks).length) ?_ ?_ seg
  · intro s0 s h0 h _
    rw [List.append_nil] at h
    rw [h.unique h0]
    exact ⟨[], by simp, by simp, by simp⟩
  · intro seg x ih s0 s h0 h hx
    rw [← List.append_assoc] at h
    obtain ⟨s1, h1, hpre, hpost, -⟩ := h.last
    obtain ⟨r, e1, e2, e3⟩ := ih h0 h1 fun y hy => hx y (List.mem_append_left _ hy)
    obtain ⟨hx1, hx2, hx3⟩ := hx x (List.mem_append_right _ List.mem_cons_self)
    have req : ∀ z : Byte, (z = 2 ∨ z = 13) → asks x = true → (s.mac.queue = if x.pre.mac.queue.length + 1 ≤ 15 then x.pre.mac.queue ++ [z] else x.pre.mac.queue) →
        ∃ r, s.mac.queue = s0.mac.queue ++ r ∧ (∀ b ∈ r, b = 2 ∨ b = 13) ∧ r.length ≤ ((seg ++ [x]).filter asks).length := by
      intro z hz ha hq
      rw [List.filter_append, List.length_append, List.filter_cons, if_pos ha]
      rw [hpre, e1] at hq
      split at hq
      · refine ⟨r ++ [z], by rw [hq, List.append_assoc], ?_, by simpa using e3⟩
        intro b hb
        rcases List.mem_append.mp hb with hb | hb
        · exact e2 b hb
        · rw [List.mem_singleton.mp hb]; exact hz
      · exact ⟨r, hq, e2, by omega⟩
    by_cases o1 : x.op = .linkCheckReq
    · exact req 2 (.inl rfl) (by unfold asks; rw [o1]) (h.request (.inl ⟨o1, rfl⟩)).2
    · by_cases o2 : x.op = .deviceTimeReq
      · exact req 13 (.inr rfl) (by unfold asks; rw [o2]) (h.request (.inr ⟨o2, rfl⟩)).2
      · obtain ⟨r', hr, hr'⟩ := next_queue (E := E) (view E (log ++ seg)) (config E (log ++ seg)) x hx2 hx1
        rw [← config_snoc, ← config_hist h, ← config_hist h1] at hr
        have hq : s.mac.queue = s1.mac.queue ++ r' := hr
        rw [hr' o1 o2 fun e he => .inr (hx3 e he), List.append_nil, e1] at hq
        refine ⟨r, hq, e2, ?_⟩
        rw [List.filter_append, List.length_append]
        omega

theorem answersIn_asks : ∀ (r t : Bytes), (∀ b ∈ r, b = 2 ∨ b = 13) → answersIn (r ++ t) = answersIn t
  | [], _, _ => rfl
  | b :: r, t, h => by
    have ih := answersIn_asks r t fun x hx => h x (List.mem_cons_of_mem _ hx)
    unfold answersIn at ih ⊢
    rw [List.cons_append, readUp.eq_def]
    rcases h b List.mem_cons_self with rfl | rfl
    · exact ih
    · exact ih

theorem learn_nil (s : Settings) : ∀ cs, s.learn cs [] = s
  | [] => rfl
  | c :: cs => by
    rw [Settings.learn.eq_def]
    simp only [learn_nil s cs]
    split <;> rfl

theorem Settings.of_arrived (c : Cfg) (l : Bytes) (f : DataFrame) (snr : BitVec 8) : Settings.of (c.arrived l f snr) = Settings.of c := by
  unfold Cfg.arrived Cfg.noteAck; split <;> rfl

/-- C128, what holds: a downlink frame with MAC commands comes between two accepted uplinks. If the network's record of the settings was
right before it, the answers in the next uplink tell the network the settings after it, whatever else happened in between, provided the
answers and the requests of the application before them fit into the 15 bytes. Missing: when they do not fit, a setting changes without an answer
(`C128_astray`). ChMaskCntl is 0 or 6, and NbTrans is not 0. -/
theorem C128_known_partial {x d u : Item} {a b : List Item} {s s' : St} {o : Oracle} {l : Bytes} {f : DataFrame} {cmds : List (Cmd × Nat)}
    (h : Hist E (log ++ [x] ++ a ++ [d] ++ b ++ [u]) s) (hx : frameSent x = true) (hu : frameSent u = true)
    (ha : ∀ y ∈ a, quiet y) (hb : ∀ y ∈ b, quiet y) (hd : Carries E (log ++ [x] ++ a) d s' o l f cmds)
    (hroom : (a.filter asks).length + answerBytes (cmds.map (·.1)) ≤ 15) (hp : ∀ c ∈ cmds, c.1.proper) :
    ∃ frame fu, txs u.ev = [frame] ∧ parse frame = some fu ∧
      (Settings.of (config E (log ++ [x] ++ a))).learn (cmds.map (·.1)) (answersIn fu.fOpts) = Settings.of (config E (log ++ [x] ++ a ++ [d])) := by
  obtain ⟨p, pl, c, rnd, hop, hr⟩ := sent_of hu
  obtain ⟨p', pl', c', rnd', hop', hr'⟩ := sent_of hx
  obtain ⟨frame, fu, h1, h2, h3, -⟩ := C46_carried h hop hr
  obtain ⟨s4, g4, hpre, -⟩ := h.last
  obtain ⟨s3, g3, -⟩ := g4.prefix
  obtain ⟨s2, g2, -⟩ := g3.last
  obtain ⟨s1, g1, -⟩ := g2.prefix
  obtain ⟨-, -, -, -, -, hempty⟩ := C46_carried g1 hop' hr'
  obtain ⟨ra, qa, ra1, ra2⟩ := asks_seg g1 g2 ha
  obtain ⟨rb, qb, rb1, -⟩ := asks_seg g3 g4 hb
  rw [hempty, List.nil_append] at qa
  have hq : ((config E (log ++ [x] ++ a)).arrived l f o.snr).queue = ra := by
    refine (noteAck_queue (config E (log ++ [x] ++ a)) l).trans ?_
    rw [← config_hist g2, ← qa]; rfl
  obtain ⟨bs, k1, k2⟩ := learn_exec o.bat cmds ((config E (log ++ [x] ++ a)).arrived l f o.snr) (by rw [hq]; omega) hp
  have hall := hd.all.2
  rw [hd.hist.unique g3] at hall
  have q3 : s3.mac.queue = ra ++ bs := by
    rw [← hq, ← k1]
    exact congrArg Cfg.queue hall
  refine ⟨frame, fu, h1, h2, ?_⟩
  have hans : answersIn fu.fOpts = answersIn (bs ++ rb) := by
    rw [h3, hpre, qb, q3, List.append_assoc, answersIn_asks ra _ ra1]
  have h0 : answersIn rb = [] := by
    have := answersIn_asks rb [] rb1
    rw [List.append_nil] at this
    exact this
  rw [hans, ← Settings.of_arrived _ l f o.snr, k2 rb h0, ← config_hist g3, hall]
  rfl

/-- C128: a downlink frame that got lost or was not accepted changes no setting, and the next uplink answers nothing: the network keeps its record. -/
theorem C128_lost {x d u : Item} {a b : List Item} {s : St} {m : Byte} {o : Oracle} (h : Hist E (log ++ [x] ++ a ++ [d] ++ b ++ [u]) s)
    (hx : frameSent x = true) (hu : frameSent u = true) (ha : ∀ y ∈ a, quiet y) (hd : quiet d) (hb : ∀ y ∈ b, quiet y)
    (hop : d.op = .event m o) (hj : (config E (log ++ [x] ++ a)).joining = false) (cmds : List Cmd) :
    ∃ frame fu, txs u.ev = [frame] ∧ parse frame = some fu ∧ answersIn fu.fOpts = [] ∧
      (Settings.of (config E (log ++ [x] ++ a))).learn cmds (answersIn fu.fOpts) = Settings.of (config E (log ++ [x] ++ a ++ [d])) := by
  obtain ⟨p, pl, c, rnd, hop1, hr⟩ := sent_of hu
  obtain ⟨p', pl', c', rnd', hop', hr'⟩ := sent_of hx
  obtain ⟨frame, fu, h1, h2, h3, -⟩ := C46_carried h hop1 hr
  obtain ⟨s4, g4, hpre, -⟩ := h.last
  have g4' : Hist E (log ++ [x] ++ (a ++ [d] ++ b)) s4 := by simpa using g4
  obtain ⟨s1, g1, -⟩ := g4'.prefix
  obtain ⟨-, -, -, -, -, hempty⟩ := C46_carried g1 hop' hr'
  obtain ⟨r, q, hr1, -⟩ := asks_seg g1 g4' (by
    intro y hy
    rcases List.mem_append.mp hy with hy | hy
    · rcases List.mem_append.mp hy with hy | hy
      · exact ha y hy
      · rw [List.mem_singleton.mp hy]; exact hd
    · exact hb y hy)
  rw [hempty, List.nil_append] at q
  have h0 : answersIn fu.fOpts = [] := by
    have := answersIn_asks r [] hr1
    rw [List.append_nil] at this
    rw [h3, hpre, q]; exact this
  refine ⟨frame, fu, h1, h2, h0, ?_⟩
  rw [h0, learn_nil, config_snoc]
  unfold Cfg.next
  rw [hop]
  simp only [hj]
  cases hrep : report d.ev with
  | none => simp only; split <;> rfl
  | some e =>
    obtain ⟨e1, e2⟩ := hd.2.2 e hrep
    simp only [Bool.false_eq_true, if_false]
    unfold Cfg.receive
    rw [if_neg (by simp [e1, e2])]
    split
    · rfl
    · unfold Cfg.noteAck; split <;> rfl

/-! ### Demonstrations -/

/-- What happens between two uplinks: the downlink with commands `cs`, and requests before and after it. -/
def mgrPre (n : Nat) : List Op := .event 4 (Tests.rxOf []) :: List.replicate n .linkCheckReq ++ [.timer .rx1]

/-- The operations before the downlink. -/
def mgrOps (n : Nat) : List Op := onceA ++ [.send 2 [1] false 0] ++ mgrPre n

theorem mgr_hist (n : Nat) (ev : Op) (b : List Op) (hf : Demo.fine (mgrOps n ++ [ev] ++ b ++ [.send 2 [2] false 0]) = true) :
    Hist Tests.xorEnv (Demo.items onceA ++ [Demo.nextItem onceA (.send 2 [1] false 0)] ++
      (Demo.items (mgrOps n)).drop (onceA.length + 1) ++ [Demo.nextItem (mgrOps n) ev] ++
      (Demo.items (mgrOps n ++ [ev] ++ b)).drop ((mgrOps n).length + 1) ++ [Demo.nextItem (mgrOps n ++ [ev] ++ b) (.send 2 [2] false 0)])
      (Demo.nextItem (mgrOps n ++ [ev] ++ b) (.send 2 [2] false 0)).post ∧
    Demo.items (mgrOps n) = Demo.items onceA ++ [Demo.nextItem onceA (.send 2 [1] false 0)] ++ (Demo.items (mgrOps n)).drop (onceA.length + 1) := by
  have h := Demo.two hf
  have hf1 : Demo.fine (mgrOps n) = true := Demo.fine_left (Demo.fine_left (Demo.fine_left hf))
  have e : Demo.items (mgrOps n) = Demo.items onceA ++ [Demo.nextItem onceA (.send 2 [1] false 0)] ++ (Demo.items (mgrOps n)).drop (onceA.length + 1) := by
    unfold mgrOps at hf1 ⊢
    have := Demo.items_append hf1
    rw [(Demo.items_snoc (Demo.fine_left hf1)).1] at this
    simpa using this
  refine ⟨?_, e⟩
  rw [← e]
  exact h

/-- `quiet` by computation. -/
def quietB (y : Item) : Bool :=
  !frameSent y && (match y.op with | .init _ => false | _ => true) && match report y.ev with | some e => e != .no && e != .msgMic | none => true

theorem quiet_of {l : List Item} (h : l.all quietB = true) : ∀ y ∈ l, quiet y := by
  intro y hy
  have := List.all_eq_true.mp h y hy
  unfold quietB at this
  simp only [Bool.and_eq_true, Bool.not_eq_true'] at this
  refine ⟨this.1.1, fun r hr => ?_, fun e he => ?_⟩
  · rw [hr] at this; exact Bool.noConfusion this.1.2
  · rw [he] at this
    have h2 := this.2
    simp only [Bool.and_eq_true, bne_iff_ne] at h2
    exact h2

/-- Channel 4 at 867.1 MHz, receive delay 4 s, data rate 3, power 2, two transmissions on channels 0 and 4, status. -/
def mgrCmds : Bytes := [7, 4, 0x18, 0x4f, 0x84, 0x50, 8, 4, 3, 0x32, 0x11, 0, 2, 6]

/-- The downlink with commands. -/
def mgrTake (cs : Bytes) : Op := .event 2 (Tests.rxOf (cmdFrame cs))

theorem mgr_carries (n : Nat) (cs : Bytes) (cmds : List (Cmd × Nat)) (f : DataFrame) (b : List Op)
    (hf : Demo.fine (mgrOps n ++ [mgrTake cs] ++ b ++ [.send 2 [2] false 0]) = true)
    (h1 : (config Tests.xorEnv (Demo.items (mgrOps n))).joining = false)
    (h2 : outcome (Demo.items (mgrOps n)) (Demo.nextItem (mgrOps n) (.event 2 (Tests.rxOf (cmdFrame cs)))) = .packet (cmdFrame cs))
    (h3 : verdict Tests.xorEnv (view Tests.xorEnv (Demo.items (mgrOps n))) (config Tests.xorEnv (Demo.items (mgrOps n))).down (cmdFrame cs) = .no)
    (h4 : parse (cmdFrame cs) = some f) (h5 : commands f.fOpts.length f.fOpts = cmds) :
    Carries Tests.xorEnv (Demo.items onceA ++ [Demo.nextItem onceA (.send 2 [1] false 0)] ++ (Demo.items (mgrOps n)).drop (onceA.length + 1))
      (Demo.nextItem (mgrOps n) (mgrTake cs)) (Demo.nextItem (mgrOps n) (mgrTake cs)).post (Tests.rxOf (cmdFrame cs)) (cmdFrame cs) f cmds := by
  have hf1 : Demo.fine (mgrOps n ++ [mgrTake cs]) = true := Demo.fine_left (Demo.fine_left hf)
  have hh := Demo.hist hf1
  rw [(Demo.items_snoc hf1).1, (Demo.items_snoc hf1).2] at hh
  rw [← (mgr_hist n _ b hf).2]
  exact ⟨hh, h1, h2, ⟨2, Demo.nextItem_op ..⟩, .inl h3, h4, h5⟩

/-- The answers in the one frame that was sent. -/
def toldBy (ev : List Ev) : Option (List Up) :=
  match txs ev with
  | [frame] => (parse frame).map fun f => answersIn f.fOpts
  | _ => none

theorem toldBy_iff {ev : List Ev} {us : List Up} (h : toldBy ev = some us) :
    ∃ frame fu, txs ev = [frame] ∧ parse frame = some fu ∧ answersIn fu.fOpts = us := by
  unfold toldBy at h
  split at h
  · next frame hx =>
    obtain ⟨fu, h1, h2⟩ := Option.map_eq_some_iff.mp h
    exact ⟨frame, fu, hx, h1, h2⟩
  · cases h

instance (c : Cmd) : Decidable c.proper := by unfold Cmd.proper; split <;> infer_instance

example : ∃ log x a d b u s s' o l f cmds, Hist Tests.xorEnv (log ++ [x] ++ a ++ [d] ++ b ++ [u]) s ∧ frameSent x = true ∧ frameSent u = true ∧
    (∀ y ∈ a, quiet y) ∧ (∀ y ∈ b, quiet y) ∧ Carries Tests.xorEnv (log ++ [x] ++ a) d s' o l f cmds ∧
    (a.filter asks).length + answerBytes (cmds.map (·.1)) ≤ 15 ∧ (∀ c ∈ cmds, c.1.proper) ∧
    cmds.map (·.1) = [.newChannelReq 4 867100000 5 0, .rxTimingSetupReq 4, .linkAdrReq 3 2 17 0 2, .devStatusReq] ∧
    (∃ frame fu, txs u.ev = [frame] ∧ parse frame = some fu ∧
      answersIn fu.fOpts = [.newChannelAns 3, .rxTimingSetupAns, .linkAdrAns 7, .devStatusAns 255 59]) := by
  have hf : Demo.fine (mgrOps 1 ++ [mgrTake mgrCmds] ++ [.deviceTimeReq] ++ [.send 2 [2] false 0]) = true := by decide +kernel
  refine ⟨_, _, _, _, _, _, _, _, _, _, _, _, (mgr_hist 1 _ _ hf).1, by decide +kernel, by decide +kernel, quiet_of (by decide +kernel),
    quiet_of (by decide +kernel), mgr_carries 1 mgrCmds _ _ _ hf (by decide +kernel) (by decide +kernel) (by decide +kernel) rfl rfl,
    by decide +kernel, by decide +kernel, by decide +kernel, toldBy_iff (by decide +kernel)⟩

example : ∃ log x a d b u s m o, Hist Tests.xorEnv (log ++ [x] ++ a ++ [d] ++ b ++ [u]) s ∧ frameSent x = true ∧ frameSent u = true ∧
    (∀ y ∈ a, quiet y) ∧ quiet d ∧ (∀ y ∈ b, quiet y) ∧ d.op = .event m o ∧ (config Tests.xorEnv (log ++ [x] ++ a)).joining = false ∧
    report d.ev = some .devAddr := by
  have hf : Demo.fine (mgrOps 1 ++ [.event 2 (Tests.rxOf (foreignDown))] ++ [.deviceTimeReq] ++ [.send 2 [2] false 0]) = true := by decide +kernel
  have hd : ∀ y ∈ [Demo.nextItem (mgrOps 1) (.event 2 (Tests.rxOf (foreignDown)))], quiet y := quiet_of (by decide +kernel)
  exact ⟨_, _, _, _, _, _, _, _, _, (mgr_hist 1 _ _ hf).1, by decide +kernel, by decide +kernel, quiet_of (by decide +kernel), hd _ List.mem_cons_self,
    quiet_of (by decide +kernel), Demo.nextItem_op .., by decide +kernel, by decide +kernel⟩

/-- C128 fails when the answers do not fit: fifteen link check requests fill the queue, the RXTimingSetupReq is carried out, and the next uplink
does not answer it. The device opens its windows after four seconds, the network believes one. -/
theorem C128_astray : ∃ log x a d b u s s' o l f cmds, Hist Tests.xorEnv (log ++ [x] ++ a ++ [d] ++ b ++ [u]) s ∧ frameSent x = true ∧ frameSent u = true ∧
    (∀ y ∈ a, quiet y) ∧ (∀ y ∈ b, quiet y) ∧ Carries Tests.xorEnv (log ++ [x] ++ a) d s' o l f cmds ∧ (∀ c ∈ cmds, c.1.proper) ∧
    ∃ frame fu, txs u.ev = [frame] ∧ parse frame = some fu ∧
      ((Settings.of (config Tests.xorEnv (log ++ [x] ++ a))).learn (cmds.map (·.1)) (answersIn fu.fOpts)).delay = 1 ∧
      (Settings.of (config Tests.xorEnv (log ++ [x] ++ a ++ [d]))).delay = 4 := by
  have hf : Demo.fine (mgrOps 15 ++ [mgrTake [8, 4]] ++ [] ++ [.send 2 [2] false 0]) = true := by decide +kernel
  obtain ⟨frame, fu, h1, h2, h3⟩ : ∃ frame fu, txs (Demo.nextItem (mgrOps 15 ++ [mgrTake [8, 4]] ++ []) (.send 2 [2] false 0)).ev = [frame] ∧
    parse frame = some fu ∧ answersIn fu.fOpts = [] := toldBy_iff (by decide +kernel)
  refine ⟨_, _, _, _, _, _, _, _, _, _, _, [(.rxTimingSetupReq 4, 0)], (mgr_hist 15 _ _ hf).1, by decide +kernel, by decide +kernel, quiet_of (by decide +kernel),
    quiet_of (by decide +kernel), mgr_carries 15 [8, 4] _ _ _ hf (by decide +kernel) (by decide +kernel) (by decide +kernel) rfl rfl,
    by decide +kernel, frame, fu, h1, h2, ?_, by decide +kernel⟩
  rw [h3]
  decide +kernel

end Uwan
