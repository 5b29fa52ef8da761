import Verif.Lemmas.Exchange
import Verif.Spec.Adr

/-! What operations leave alone in the observer's configuration. -/

namespace Uwan
open Spec

variable {E : Env}

/-- What MAC commands never change. -/
structure ExecFrame (c c' : Cfg) : Prop where
  region : c'.region = c.region
  defDr : c'.defDr = c.defDr
  defNb : c'.defNb = c.defNb
  defPow : c'.defPow = c.defPow
  eirp : c'.eirp = c.eirp
  adr : c'.adr = c.adr
  limit : c'.limit = c.limit
  adrDelay : c'.adrDelay = c.adrDelay
  cnt : c'.cnt = c.cnt
  ack : c'.ack = c.ack
  down : c'.down = c.down
  snr : c'.snr = c.snr
  cbs : c'.cbs = c.cbs
  stamp : c'.stamp = c.stamp
  devTime : c'.devTime = c.devTime
  joining : c'.joining = c.joining
  win1 : c'.win1 = c.win1
  win2 : c'.win2 = c.win2

theorem ExecFrame.refl (c : Cfg) : ExecFrame c c := by constructor <;> rfl

theorem ExecFrame.trans {a b c : Cfg} (h : ExecFrame a b) (g : ExecFrame b c) : ExecFrame a c :=
  ⟨g.region.trans h.region, g.defDr.trans h.defDr, g.defNb.trans h.defNb, g.defPow.trans h.defPow, g.eirp.trans h.eirp,
   g.adr.trans h.adr, g.limit.trans h.limit, g.adrDelay.trans h.adrDelay, g.cnt.trans h.cnt, g.ack.trans h.ack,
   g.down.trans h.down, g.snr.trans h.snr, g.cbs.trans h.cbs, g.stamp.trans h.stamp, g.devTime.trans h.devTime,
   g.joining.trans h.joining, g.win1.trans h.win1, g.win2.trans h.win2⟩

theorem answer_frame (c : Cfg) (l : Bytes) : ExecFrame c (c.answer l).2 := by
  unfold Cfg.answer; split <;> constructor <;> rfl

theorem setChannel_frame (c : Cfg) (i f : Nat) : ExecFrame c (c.setChannel i f) := by
  unfold Cfg.setChannel; split <;> constructor <;> rfl

theorem enable_frame (c : Cfg) (i : Nat) (b : Bool) : ExecFrame c (c.enable i b) := by
  unfold Cfg.enable; split <;> constructor <;> rfl

theorem linkAdr_frame (c : Cfg) (d p m k n : Nat) : ExecFrame c (c.linkAdr d p m k n).2 := by
  unfold Cfg.linkAdr; simp only; split <;> constructor <;> rfl

theorem rxParam_frame (c : Cfg) (o d f : Nat) : ExecFrame c (c.rxParam o d f).2 := by
  unfold Cfg.rxParam; simp only; split <;> constructor <;> rfl

theorem newChannel_frame (c : Cfg) (i f x y : Nat) : ExecFrame c (c.newChannel i f x y).2 := by
  unfold Cfg.newChannel; simp only; split
  · exact .refl _
  · simp only; split
    · exact setChannel_frame ..
    · exact .refl _

theorem exec_frame (c : Cfg) (b : Byte) (cmd : Cmd) : ExecFrame c (c.exec b cmd).2.1 := by
  cases cmd with
  | linkCheckAns => exact .refl _
  | linkAdrReq d p m k n => exact (linkAdr_frame c d p m k n).trans (answer_frame ..)
  | dutyCycleReq => exact answer_frame ..
  | rxParamSetupReq o d f => exact (rxParam_frame c o d f).trans (answer_frame ..)
  | devStatusReq => exact answer_frame ..
  | newChannelReq i f x y => exact (newChannel_frame c i f x y).trans (answer_frame ..)
  | rxTimingSetupReq d =>
    exact ExecFrame.trans (b := { c with delay := max 1 d }) (by constructor <;> rfl) (answer_frame ..)
  | txParamSetupReq => exact .refl _
  | dlChannelReq => exact .refl _
  | deviceTimeAns => exact .refl _

theorem execAll_frame (bat : Nat → Byte) (l : List (Cmd × Nat)) : ∀ c : Cfg, ExecFrame c (c.execAll bat l).1 := by
  induction l with
  | nil => intro c; exact .refl _
  | cons x l ih =>
    intro c
    obtain ⟨cmd, n⟩ := x
    unfold Cfg.execAll
    simp only
    split
    · exact (exec_frame c (bat n) cmd).trans (ih _)
    · exact exec_frame c (bat n) cmd

theorem execBytes_frame (bat : Nat → Byte) (l : Bytes) (c : Cfg) : ExecFrame c (c.execBytes bat l).1 :=
  execAll_frame bat _ c

/-- What a received frame never changes. -/
structure RxFrame (c c' : Cfg) : Prop where
  region : c'.region = c.region
  defDr : c'.defDr = c.defDr
  defNb : c'.defNb = c.defNb
  defPow : c'.defPow = c.defPow
  eirp : c'.eirp = c.eirp
  adr : c'.adr = c.adr
  limit : c'.limit = c.limit
  adrDelay : c'.adrDelay = c.adrDelay
  cbs : c'.cbs = c.cbs
  stamp : c'.stamp = c.stamp
  devTime : c'.devTime = c.devTime
  joining : c'.joining = c.joining
  win1 : c'.win1 = c.win1
  win2 : c'.win2 = c.win2

theorem RxFrame.refl (c : Cfg) : RxFrame c c := by constructor <;> rfl

theorem RxFrame.trans {a b c : Cfg} (h : RxFrame a b) (g : RxFrame b c) : RxFrame a c :=
  ⟨g.region.trans h.region, g.defDr.trans h.defDr, g.defNb.trans h.defNb, g.defPow.trans h.defPow, g.eirp.trans h.eirp,
   g.adr.trans h.adr, g.limit.trans h.limit, g.adrDelay.trans h.adrDelay, g.cbs.trans h.cbs, g.stamp.trans h.stamp,
   g.devTime.trans h.devTime, g.joining.trans h.joining, g.win1.trans h.win1, g.win2.trans h.win2⟩

theorem ExecFrame.rx {c c' : Cfg} (h : ExecFrame c c') : RxFrame c c' :=
  ⟨h.region, h.defDr, h.defNb, h.defPow, h.eirp, h.adr, h.limit, h.adrDelay, h.cbs, h.stamp, h.devTime, h.joining, h.win1,
   h.win2⟩

theorem noteAck_frame (c : Cfg) (l : Bytes) : RxFrame c (c.noteAck l) := by
  unfold Cfg.noteAck; split <;> constructor <;> rfl

theorem receive_frame (c : Cfg) (o : Oracle) (l : Bytes) (e : Err) : RxFrame c (c.receive o l e) := by
  unfold Cfg.receive
  split
  · split
    · exact .refl _
    · next f hf =>
      simp only
      refine (noteAck_frame c l).trans ?_
      refine RxFrame.trans
        (b := { c.noteAck l with down := (nextDown c.down f.fCnt).getD 0, snr := o.snr.toInt }) (by constructor <;> rfl) ?_
      refine (execBytes_frame o.bat f.fOpts _).rx.trans ?_
      split <;> constructor <;> rfl
  · split
    · exact .refl _
    · exact noteAck_frame c l

theorem cfEntry_frame (c : Cfg) (i f : Nat) : ExecFrame c (c.cfEntry i f) := by
  unfold Cfg.cfEntry; split
  · exact enable_frame ..
  · exact setChannel_frame ..

theorem cfList_frame (c : Cfg) (first : Nat) (l : Bytes) : ExecFrame c (c.cfList first l) := by
  unfold Cfg.cfList
  split
  · generalize List.range 5 = r
    induction r generalizing c with
    | nil => exact .refl _
    | cons k r ih => exact (cfEntry_frame ..).trans (ih _)
  · exact .refl _

theorem accept_frame (c : Cfg) (l : Bytes) : RxFrame c (c.accept l) := by
  unfold Cfg.accept
  simp only
  split
  · split
    · exact RxFrame.trans (by constructor <;> rfl) (cfList_frame ..).rx
    · constructor <;> rfl
  · constructor <;> rfl

/-- One operation's effect on the fields only the application can change. -/
theorem next_adr (v : View) (c : Cfg) (it : Item) :
    (c.next E v it).adr = (match it.op with | .adrEnable b => b | _ => c.adr) := by
  unfold Cfg.next
  cases hop : it.op with
  | init r =>
    simp only
    cases r
    · exact ((setChannel_frame ..).trans ((setChannel_frame ..).trans (setChannel_frame ..))).adr
    · exact ((setChannel_frame ..).trans (setChannel_frame ..)).adr
  | enableChannel i en => exact (enable_frame ..).adr
  | setChannel i f => exact (setChannel_frame ..).adr
  | join => simp only; split <;> rfl
  | send => simp only; split <;> rfl
  | event m o =>
    simp only
    split
    · simp only
      split
      · split
        · exact (accept_frame ..).adr
        · rfl
      · exact (receive_frame ..).adr
    · split <;> rfl
  | linkCheckReq => exact (answer_frame ..).adr
  | deviceTimeReq => exact (answer_frame ..).adr
  | setRx2 => simp only; split <;> rfl
  | setDr => simp only; split <;> rfl
  | setNbTrans => simp only; split <;> rfl
  | setTxPower => simp only; split <;> rfl
  | setRx1DrOffset => simp only; split <;> rfl
  | setRx1Delay => simp only; split <;> rfl
  | _ => rfl

theorem config_nil : config E [] = Cfg.boot := rfl

/-- Induction over histories from the front, for observers. -/
theorem snoc_induction {P : List Item → Prop} (h0 : P []) (hs : ∀ l x, P l → P (l ++ [x])) : ∀ l, P l := by
  intro l
  suffices ∀ (m : List Item), P m → P (m ++ l) by simpa using this [] h0
  induction l with
  | nil => intro m hm; simpa using hm
  | cons x l ih => intro m hm; have := ih (m ++ [x]) (hs m x hm); simpa using this

theorem config_adr (log : List Item) : (config E log).adr = adrOn log := by
  refine snoc_induction (P := fun log => (config E log).adr = adrOn log) rfl ?_ log
  intro l x ih
  rw [config_snoc, next_adr, ih]
  unfold adrOn
  rw [List.foldl_append]; rfl

/-! ### ADR -/

/-- A calm operation other than an accepted uplink. -/
theorem calm_next {v : View} {c : Cfg} {it : Item} (hc : calm it = true)
    (hs : (∃ p l x r, it.op = .send p l x r) → it.ret ≠ .err .no) :
    (c.next E v it).dr = c.dr ∧ (c.next E v it).cnt = c.cnt ∧ (c.next E v it).limit = c.limit ∧
    (c.next E v it).adrDelay = c.adrDelay := by
  unfold calm at hc
  unfold Cfg.next
  cases hop : it.op <;> simp only [hop] at hc ⊢ <;> try exact ⟨trivial, trivial, trivial, trivial⟩
  case enableChannel i en =>
    unfold Cfg.enable; split <;> exact ⟨rfl, rfl, rfl, rfl⟩
  case setChannel i f =>
    unfold Cfg.setChannel; split <;> exact ⟨rfl, rfl, rfl, rfl⟩
  case send p l x r =>
    rw [if_neg (hs ⟨p, l, x, r, hop⟩)]; exact ⟨rfl, rfl, rfl, rfl⟩
  case event m o =>
    split
    · next e he =>
      rw [he] at hc
      simp only [Bool.and_eq_true, bne_iff_ne, ne_eq, Option.some.injEq] at hc
      simp only [if_neg hc.1]
      unfold Cfg.receive Cfg.noteAck
      rw [if_neg (show ¬(e = .no ∨ e = .msgMic) by simp [hc])]
      split
      · exact ⟨rfl, rfl, rfl, rfl⟩
      · split
        · exact ⟨rfl, rfl, rfl, rfl⟩
        · split <;> exact ⟨rfl, rfl, rfl, rfl⟩
    · split <;> exact ⟨rfl, rfl, rfl, rfl⟩
  case linkCheckReq => unfold Cfg.answer; split <;> exact ⟨rfl, rfl, rfl, rfl⟩
  case deviceTimeReq => unfold Cfg.answer; split <;> exact ⟨rfl, rfl, rfl, rfl⟩
  all_goals first
    | exact Bool.noConfusion hc
    | (split <;> exact ⟨rfl, rfl, rfl, rfl⟩)

theorem sentCount_snoc (l : List Item) (x : Item) : sentCount (l ++ [x]) = sentCount l + sentCount [x] := by
  unfold sentCount; rw [List.countP_append]

theorem div_mod_succ {n p : Nat} (hp : 0 < p) :
    (n % p + 1 < p → (n + 1) / p = n / p ∧ (n + 1) % p = n % p + 1) ∧
    (n % p + 1 = p → (n + 1) / p = n / p + 1 ∧ (n + 1) % p = 0) := by
  have e := Nat.div_add_mod n p
  constructor
  · intro h
    have e2 : n + 1 = (n % p + 1) + p * (n / p) := by omega
    constructor
    · rw [e2, Nat.add_mul_div_left _ _ hp, Nat.div_eq_of_lt h]; omega
    · rw [e2, Nat.add_mul_mod_self_left, Nat.mod_eq_of_lt h]
  · intro h
    have e2 : n + 1 = 0 + p * (n / p + 1) := by rw [Nat.mul_add]; omega
    constructor
    · rw [e2, Nat.add_mul_div_left _ _ hp]; simp
    · rw [e2, Nat.add_mul_mod_self_left, Nat.zero_mod]

/-- The closed form of ADR back-off. -/
theorem backoff (log : List Item) (h0 : (config E log).cnt = 0) (seg : List Item) (hseg : ∀ x ∈ seg, calm x = true)
    (hl : (config E log).limit < 256) (hd : (config E log).adrDelay < 256) :
    let c := config E log
    let c' := config E (log ++ seg)
    let p := c.limit + c.adrDelay + 1
    c'.dr = c.dr - sentCount seg / p ∧ (c'.dr ≠ 0 → c'.cnt = sentCount seg % p) ∧ c'.limit = c.limit ∧
      c'.adrDelay = c.adrDelay := by
  intro c
  refine snoc_induction (P := fun seg => (∀ x ∈ seg, calm x = true) →
    let c' := config E (log ++ seg)
    let p := c.limit + c.adrDelay + 1
    c'.dr = c.dr - sentCount seg / p ∧ (c'.dr ≠ 0 → c'.cnt = sentCount seg % p) ∧ c'.limit = c.limit ∧
      c'.adrDelay = c.adrDelay) ?_ ?_ seg hseg
  · intro _
    simp [sentCount, c, h0]
  · intro l x ih hx
    obtain ⟨i1, i2, i3, i4⟩ := ih (fun y hy => hx y (by simp [hy]))
    have hcx := hx x (by simp)
    simp only
    rw [← List.append_assoc, config_snoc]
    generalize config E (log ++ l) = d at *
    by_cases hsend : ∃ p l y r, x.op = .send p l y r ∧ x.ret = .err .no
    · obtain ⟨p, w, y, r, hop, hr⟩ := hsend
      have hcnt : sentCount (l ++ [x]) = sentCount l + 1 := by
        rw [sentCount_snoc]; simp [sentCount, hop, hr]
      have hnx : d.next E (view E (log ++ l)) x = d.sent := by unfold Cfg.next; simp [hop, hr]
      rw [hnx, hcnt]
      unfold Cfg.sent
      simp only [i3, i4]
      obtain ⟨g1, g2⟩ := div_mod_succ (n := sentCount l) (p := c.limit + c.adrDelay + 1) (by omega)
      have hlt := Nat.mod_lt (sentCount l) (show 0 < c.limit + c.adrDelay + 1 by omega)
      have hl' : c.limit < 256 := hl
      have hd' : c.adrDelay < 256 := hd
      generalize sentCount l = n at *
      generalize hP : c.limit + c.adrDelay + 1 = P at *
      by_cases hz : d.dr = 0
      · simp only [hz, ne_eq, not_true_eq_false, decide_false, Bool.false_and, Bool.false_eq_true, ↓reduceIte]
        refine ⟨?_, by simp, by simp, by simp⟩
        have : n / P ≤ (n + 1) / P := Nat.div_le_div_right (by omega)
        omega
      · have hcn := i2 hz
        have hm : (d.cnt + 1) % 2 ^ 32 = n % P + 1 := by rw [hcn, Nat.mod_eq_of_lt (by omega)]
        rw [hm]
        by_cases hb : n % P + 1 = P
        · obtain ⟨k1, k2⟩ := g2 hb
          have hcond : (decide (d.dr ≠ 0) && decide (c.limit + c.adrDelay < n % P + 1)) = true := by
            simp [hz]; omega
          rw [if_pos hcond, if_pos hcond, k1, k2]
          exact ⟨by omega, fun _ => rfl, by simp, by simp⟩
        · obtain ⟨k1, k2⟩ := g1 (by omega)
          have hcond : ¬(decide (d.dr ≠ 0) && decide (c.limit + c.adrDelay < n % P + 1)) = true := by
            simp [hz]; omega
          rw [if_neg hcond, if_neg hcond, k1, k2]
          exact ⟨by omega, fun _ => rfl, by simp, by simp⟩
    · have hs : (∃ p l y r, x.op = .send p l y r) → x.ret ≠ .err .no := by
        rintro ⟨p, w, y, r, hop⟩ hr
        exact hsend ⟨p, w, y, r, hop, hr⟩
      have hcnt : sentCount (l ++ [x]) = sentCount l := by
        rw [sentCount_snoc]
        suffices sentCount [x] = 0 by omega
        unfold sentCount
        cases hop : x.op <;> simp [hop]
        intro hr
        exact hsend ⟨_, _, _, _, hop, hr⟩
      obtain ⟨k1, k2, k3, k4⟩ := calm_next (E := E) (v := view E (log ++ l)) (c := d) hcx hs
      rw [k1, k2, k3, k4, hcnt]
      exact ⟨i1, i2, i3, i4⟩

/-- A reset sets the count to zero. -/
theorem reset_cnt {log : List Item} {it : Item} {s' : St} (h : Hist E (log ++ [it]) s') (hr : adrReset it = true) :
    (config E (log ++ [it])).cnt = 0 := by
  obtain ⟨s, h1, -, -, -, hs⟩ := h.last
  rw [← config_hist h]
  show s'.adr.ackCnt.toNat = 0
  have key : (∀ m o, it.op ≠ .event m o) → dataReported it.ev = false := by
    intro ho
    cases hj : dataReported it.ev with
    | false => rfl
    | true =>
      unfold dataReported at hj
      obtain ⟨x, hx, hf⟩ := List.any_eq_true.mp hj
      cases x <;> simp at hf
      exact absurd hx (no_report h1.inv hs ho _ _ _)
  unfold adrReset at hr
  cases hop : it.op <;> simp only [hop] at hr
  case adrEnable b =>
    rw [hop] at hs
    simp only [step, Except.ok.injEq, Prod.mk.injEq] at hs
    rw [← hs.2.1]; rfl
  case event m o =>
    rw [hop] at hs
    have hdl : ∀ (s0 : St) (err : Err) (ev1 : List Ev), DlCase E o s0 err s' ev1 → dataReported ev1 = true →
        s'.adr.ackCnt.toNat = 0 := by
      intro s0 err ev1 hc hd
      cases hc with
      | none he =>
        have := dataReported_shape (e := err) (m := 0) (p := ⟨none, 0, 0, 0⟩) (a := [.sleep]) (.inl rfl) Quiet.nil
        simp only [List.append_nil, List.cons_append, List.nil_append] at this
        rw [this] at hd
        simp [he] at hd
      | join e s2 p ev hn hj hc =>
        rw [dataReported_shape (.inr rfl) hc.quiet] at hd
        simp only [Bool.and_eq_true, beq_iff_eq, bne_iff_ne] at hd
        obtain ⟨rfl, hm⟩ := hd
        generalize hbuf : List.take 255 o.rxData = buf at hc
        cases hc with
        | good blks fr J c hb =>
          exfalso; apply hm
          rw [hb] at hbuf
          rw [rxMtype_cons hbuf]; rfl
      | data e s2 p ev hn hj hc =>
        rw [dataReported_shape (.inr rfl) hc.quiet] at hd
        simp only [Bool.and_eq_true, beq_iff_eq, bne_iff_ne] at hd
        obtain ⟨rfl, hm⟩ := hd
        generalize List.take 255 o.rxData = buf at hc
        cases hc with
        | good => rfl
    have hev := step_event h1.inv hs
    generalize it.ev = ev at *
    cases hev with
    | ignore => simp [dataReported] at hr
    | txDone mm ev2 hp hm hmac =>
      exfalso
      have hq := macOnTxComplete_quiet hmac
      unfold dataReported at hr
      obtain ⟨x, hx, hf⟩ := List.any_eq_true.mp hr
      cases x <;> simp at hf
      simp only [List.cons_append, List.nil_append, List.mem_cons, reduceCtorEq, false_or] at hx
      exact Bool.noConfusion (hq.all _ hx)
    | rx1Timeout => simp [dataReported] at hr
    | rx1Done s1 ev1 hp ht hm hc => exact hdl _ _ _ hc (by simpa [dataReported] using hr)
    | rx2Timeout _ _ hp hm hc => exact hdl _ _ _ hc hr
    | rx2Done _ _ hp ht hm hc => exact hdl _ _ _ hc hr
  all_goals
    rw [key (by intro m o; rw [hop]; exact nofun)] at hr
    simp at hr

theorem limit_lt {log : List Item} {s : St} (h : Hist E log s) :
    (config E log).limit < 256 ∧ (config E log).adrDelay < 256 := by
  rw [← config_hist h]
  exact ⟨s.adr.ackLimit.isLt, s.adr.ackDelay.isLt⟩

theorem reqBit_eq (s : St) :
    adrGetReqBit s = ((cfgOf s).adr && decide ((cfgOf s).dr ≠ 0) && decide ((cfgOf s).limit ≤ (cfgOf s).cnt)) := by
  unfold adrGetReqBit
  show _ = (s.adr.enabled && decide (s.session.dr ≠ 0) && decide (s.adr.ackLimit.toNat ≤ s.adr.ackCnt.toNat))
  cases s.adr.enabled <;> by_cases h : s.session.dr = 0 <;> simp [h]

theorem drTable_sf {n : Nat} {d : Sf × Bw} (h : drTable n = some d) : n < 6 ∧ sfNum d.1 = 12 - n := by
  match n with
  | 0 | 1 | 2 | 3 | 4 | 5 => simp only [drTable, Option.some.injEq] at h; subst h; exact ⟨by decide, rfl⟩
  | n + 6 => simp [drTable] at h

theorem drTable_bw {n : Nat} {d : Sf × Bw} (h : drTable n = some d) : d.2 = .bw125 := by
  match n with
  | 0 | 1 | 2 | 3 | 4 | 5 => simp only [drTable, Option.some.injEq] at h; subst h; rfl
  | n + 6 => simp [drTable] at h

end Uwan
