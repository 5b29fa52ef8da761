import Verif.Spec.Join
import Verif.Lemmas.Received

/-! Lemmas about joining. -/

namespace Uwan
open Spec

variable {E : Env} {log : List Item} {it : Item} {s' : St}

/-! ### The join-request -/

theorem buildJoin_eq (s : St) (n : U32) :
    (buildJoin E s n).1 = joinRequest E s.appKey s.appEui.toList s.devEui.toList.reverse n.toNat := by
  unfold buildJoin joinRequest calcMic
  simp [leBytes2]

theorem joinRequest_length (key : Block) (a d : Bytes) (n : Nat) (ha : a.length = 8) (hd : d.length = 8) :
    (joinRequest E key a d n).length = 23 := by
  simp [joinRequest, ha, hd, leBytes_length]

/-! ### The join-accept -/

theorem JoinAccept.body_length (J : JoinAccept) : J.body.length = 12 + J.cfList.length := by
  simp [JoinAccept.body, leBytes_length]; omega

theorem clear_length (J : JoinAccept) (m : Block) : (J.body ++ m.toList.take 4).length = 16 + J.cfList.length := by
  simp [JoinAccept.body_length]; omega

theorem joinClear_build {dec : Block → Block → Block} (hdec : ∀ k b, E.aes k (dec k b) = b) (J : JoinAccept) (key : Block)
    (hcf : J.cfList.length = 0 ∨ J.cfList.length = 16) :
    joinClear E key (J.build E dec key) = J.body ++ (E.cmac key (0x20 :: J.body)).toList.take 4 ∧
      (J.build E dec key).length = 17 + J.cfList.length := by
  have hl := clear_length J (E.cmac key (0x20 :: J.body))
  unfold JoinAccept.build
  simp only
  generalize J.body ++ (E.cmac key (0x20 :: J.body)).toList.take 4 = c at *
  rcases hcf with hcf | hcf
  · rw [hcf] at hl
    rw [if_pos (by omega)]
    refine ⟨?_, by simp [hcf]⟩
    unfold joinClear
    rw [if_pos (by simp)]
    simp only [List.append_nil, List.drop_succ_cons, List.drop_zero]
    rw [List.take_of_length_le (by simp), blockOf_of_toList, hdec, blockOf_toList (by simp; omega)]
    exact List.take_of_length_le (by omega)
  · rw [hcf] at hl
    rw [if_neg (by omega)]
    refine ⟨?_, by simp [hcf]⟩
    unfold joinClear
    rw [if_neg (by simp)]
    simp only [List.drop_succ_cons, List.drop_zero]
    have e : ∀ b1 b2 : Block, (b1.toList ++ b2.toList).take 16 = b1.toList ∧
        ((b1.toList ++ b2.toList).drop 16).take 16 = b2.toList := by
      intro b1 b2
      constructor
      · rw [List.take_append_of_le_length (by simp), List.take_of_length_le (by simp)]
      · rw [List.drop_left' (by simp), List.take_of_length_le (by simp)]
    obtain ⟨e1, e2⟩ := e (dec key (blockOf (c.take 16))) (dec key (blockOf (c.drop 16)))
    rw [e1, e2, blockOf_of_toList, blockOf_of_toList, hdec, hdec, blockOf_toList (by simp; omega),
      blockOf_toList (by simp; omega)]
    exact List.take_append_drop ..

theorem joinVerdict_build {dec : Block → Block → Block} (hdec : ∀ k b, E.aes k (dec k b) = b) (J : JoinAccept) (key : Block)
    (hcf : J.cfList.length = 0 ∨ J.cfList.length = 16) : joinVerdict E key (J.build E dec key) = .no := by
  obtain ⟨h1, h2⟩ := joinClear_build hdec J key hcf
  unfold joinVerdict
  rw [if_neg (by omega), if_neg (by simp [JoinAccept.build])]
  simp only
  rw [h1, clear_length, show 16 + J.cfList.length - 4 = J.body.length by rw [JoinAccept.body_length]; omega]
  rw [List.drop_left, List.take_left, if_pos rfl]

theorem JoinAccept.fields (J : JoinAccept) (m : Bytes) (h1 : J.appNonce < 2 ^ 24) (h2 : J.netId < 2 ^ 24)
    (h3 : J.devAddr < 2 ^ 32) :
    leNat ((J.body ++ m).take 3) = J.appNonce ∧ leNat (((J.body ++ m).drop 3).take 3) = J.netId ∧
    leNat (((J.body ++ m).drop 6).take 4) = J.devAddr ∧ leNat (((J.body ++ m).drop 10).take 1) = J.dlSettings.toNat ∧
    leNat (((J.body ++ m).drop 11).take 1) = J.rxDelay.toNat ∧ (J.body ++ m).drop 12 = J.cfList ++ m := by
  have e1 := leNat_leBytes 3 J.appNonce
  have e2 := leNat_leBytes 3 J.netId
  have e3 := leNat_leBytes 4 J.devAddr
  rw [Nat.mod_eq_of_lt (by omega)] at e1 e2 e3
  unfold JoinAccept.body
  have l1 := leBytes_length 3 J.appNonce
  have l2 := leBytes_length 3 J.netId
  have l3 := leBytes_length 4 J.devAddr
  generalize leBytes 3 J.appNonce = a at *
  generalize leBytes 3 J.netId = b at *
  generalize leBytes 4 J.devAddr = c at *
  match a, l1 with
  | [_, _, _], _ =>
    match b, l2 with
    | [_, _, _], _ =>
      match c, l3 with
      | [_, _, _, _], _ => exact ⟨e1, e2, e3, by simp [leNat], by simp [leNat], rfl⟩

/-! ### A failed join -/

/-- What a join attempt may change besides the joined flag: bookkeeping of the exchange. -/
def tried (p : St) (ph : Phase) (js : Bool) (pp : PktParams) (fr : Bytes) (n : U32) (b : Bool) (t : U32) : St :=
  { p with
    phase := ph
    joinState := js
    pp := pp
    frame := fr
    devNonce := n
    rx1Delay := 5000
    rx2Delay := 6000
    session := { p.session with isJoined := false }
    mac := { p.mac with saveDevTime := b, devTime := t } }

theorem report_none {ev : List Ev} (h : results ev = []) : report ev = none := by
  rw [report_results, h]; rfl

theorem results_dl {e : Err} {m : Byte} {p : DlPkt} {l : List Ev} : results (l ++ [.downlink e m p]) ≠ [] := by
  rw [results_append]
  intro h
  have := (List.append_eq_nil_iff.mp h).2
  exact absurd this (by simp [results])

theorem DlCase.some_result {o : Oracle} {s : St} {err : Err} {ev : List Ev} (h : DlCase E o s err s' ev) :
    results ev ≠ [] := by
  cases h with
  | none => exact results_dl (l := [.sleep])
  | join => exact results_dl
  | data => exact results_dl

/-- Interrupts and timers without a result leave the attempt pending. -/
theorem tried_seg {p : St} {n : U32} : ∀ (seg log : List Item) (s0 s : St), Hist E log s0 →
    (∃ ph pp fr b t, s0 = tried p ph true pp fr n b t) → Hist E (log ++ seg) s →
    (∀ x ∈ seg, isEnv x.op = true ∧ results x.ev = []) → ∃ ph pp fr b t, s = tried p ph true pp fr n b t := by
  intro seg
  induction seg with
  | nil =>
    intro log s0 s h0 hs h _
    rw [List.append_nil] at h
    rw [h.unique h0]; exact hs
  | cons x seg ih =>
    intro log s0 s h0 hs h hx
    obtain ⟨s1, h1, -⟩ := Hist.prefix (a := log ++ [x]) (b := seg) (by simpa using h)
    obtain ⟨sx, hx0, -, -, -, hst⟩ := h1.last
    have := hx0.unique h0
    subst this
    obtain ⟨henv, hres⟩ := hx x (by simp)
    refine ih (log ++ [x]) s1 s h1 ?_ (by simpa using h) (fun y hy => hx y (by simp [hy]))
    obtain ⟨ph, pp, fr, b, t, rfl⟩ := hs
    generalize x.ev = ev at *
    cases hop : x.op with
    | timer id =>
      rw [hop] at hst
      obtain ⟨rfl, _⟩ := step_timer hst
      exact ⟨_, _, _, _, _, rfl⟩
    | event m o =>
      rw [hop] at hst
      have hc := step_event hx0.inv hst
      cases hc with
      | ignore => exact ⟨_, _, _, _, _, rfl⟩
      | txDone mm ev2 hp hm hmac =>
        have : ∃ b t, mm = { p.mac with saveDevTime := b, devTime := t } := by
          unfold macOnTxComplete tried at hmac
          simp only at hmac
          split at hmac
          · split at hmac
            · cases hmac
            · split at hmac <;> cases hmac <;> exact ⟨_, _, rfl⟩
          · cases hmac; exact ⟨_, _, rfl⟩
        obtain ⟨b', t', rfl⟩ := this
        exact ⟨_, _, _, b', t', rfl⟩
      | rx1Timeout d hp hm => exact ⟨_, _, _, _, _, rfl⟩
      | rx1Done _ ev1 hp ht hm hc => exact absurd hres (hc.some_result)
      | rx2Timeout _ _ hp hm hc => exact absurd hres hc.some_result
      | rx2Done _ _ hp ht hm hc => exact absurd hres hc.some_result
    | _ => rw [hop] at henv; simp [isEnv] at henv

/-! ### The joined flag -/

theorem joined_iff (log : List Item) : (view E log).joined = true ↔
    ∃ a x b, log = a ++ [x] ++ b ∧ establishes x = true ∧ ∀ y ∈ b, abandons y = false := by
  refine snoc_induction (P := fun log => (view E log).joined = true ↔
    ∃ a x b, log = a ++ [x] ++ b ∧ establishes x = true ∧ ∀ y ∈ b, abandons y = false) ?_ ?_ log
  · simp [view, View.boot]
  · intro l z ih
    rw [view_snoc]
    have none : abandons z = true → establishes z = false → ((view E l).next E z).joined = false →
        (((view E l).next E z).joined = true ↔
          ∃ a x b, l ++ [z] = a ++ [x] ++ b ∧ establishes x = true ∧ ∀ y ∈ b, abandons y = false) := by
      intro h1 h2 h3
      rw [h3]
      constructor
      · intro h; cases h
      · rintro ⟨a, x, b, he, hx, hb⟩
        rcases List.eq_nil_or_concat b with rfl | ⟨b', y, rfl⟩
        · rw [List.append_nil] at he
          have := (List.append_inj' he rfl).2
          cases this
          rw [hx] at h2; cases h2
        · have he' : l ++ [z] = (a ++ [x] ++ b') ++ [y] := by rw [he]; simp
          have := (List.append_inj' he' rfl).2
          cases this
          rw [hb z (by simp)] at h1; cases h1
    have some : establishes z = true → ((view E l).next E z).joined = true →
        (((view E l).next E z).joined = true ↔
          ∃ a x b, l ++ [z] = a ++ [x] ++ b ∧ establishes x = true ∧ ∀ y ∈ b, abandons y = false) :=
      fun h1 h2 => ⟨fun _ => ⟨l, z, [], (List.append_nil _).symm, h1, fun y hy => absurd hy List.not_mem_nil⟩, fun _ => h2⟩
    have keep : establishes z = false → abandons z = false → ((view E l).next E z).joined = (view E l).joined →
        (((view E l).next E z).joined = true ↔
          ∃ a x b, l ++ [z] = a ++ [x] ++ b ∧ establishes x = true ∧ ∀ y ∈ b, abandons y = false) := by
      intro h1 h2 h3
      rw [h3, ih]
      constructor
      · rintro ⟨a, x, b, he, hx, hb⟩
        refine ⟨a, x, b ++ [z], by rw [he]; simp, hx, ?_⟩
        intro y hy
        rcases List.mem_append.mp hy with hy | hy
        · exact hb y hy
        · rw [List.mem_singleton.mp hy]; exact h2
      · rintro ⟨a, x, b, he, hx, hb⟩
        rcases List.eq_nil_or_concat b with rfl | ⟨b', y, rfl⟩
        · rw [List.append_nil] at he
          have := (List.append_inj' he rfl).2
          cases this
          rw [hx] at h1; cases h1
        · have he' : l ++ [z] = (a ++ [x] ++ b') ++ [y] := by rw [he]; simp
          exact ⟨a, x, b', (List.append_inj' he' rfl).1, hx, fun w hw => hb w (by simp [hw])⟩
    cases hop : z.op with
    | init r => exact none (by simp [abandons, hop]) (by simp [establishes, hop]) (by simp [View.next, hop])
    | setSession => exact some (by simp [establishes, hop]) (by simp [View.next, hop])
    | join =>
      by_cases hr : z.ret = .err .no
      · exact none (by simp [abandons, hop, hr]) (by simp [establishes, hop]) (by simp [View.next, hop, hr])
      · exact keep (by simp [establishes, hop]) (by simp [abandons, hop, hr]) (by simp [View.next, hop, hr])
    | event m o =>
      cases hr : joinReported z.ev with
      | true => exact some (by simp [establishes, hop, hr]) (by simp [View.next, hop, hr, View.accept])
      | false => exact keep (by simp [establishes, hop, hr]) (by simp [abandons, hop]) (by simp [View.next, hop, hr])
    | send =>
      refine keep (by simp [establishes, hop]) (by simp [abandons, hop]) ?_
      simp only [View.next, hop]; split <;> rfl
    | _ => exact keep (by simp [establishes, hop]) (by simp [abandons, hop]) (by simp [View.next, hop])

/-! ### What an exchange was started for -/

theorem kind_snoc (log : List Item) (it : Item) : kind (log ++ [it]) = (kind log).next it := by
  unfold kind; rw [List.foldl_append]; rfl

theorem unbroken_snoc : ∀ (log : List Item) (k : Kind) (it : Item),
    unbroken k (log ++ [it]) = (unbroken k log && (match it.op with | .init _ => (log.foldl Kind.next k) != .join | _ => true))
  | [], k, it => by cases hop : it.op <;> simp [unbroken, hop]
  | x :: log, k, it => by simp only [List.cons_append, unbroken, unbroken_snoc log, List.foldl_cons, Bool.and_assoc]

theorem adr_keeps (s : St) : (adrHandleUplink s).phase = s.phase ∧ (adrHandleUplink s).joinState = s.joinState := by
  unfold adrHandleUplink; simp only; split <;> exact ⟨rfl, rfl⟩

/-- The state agrees with the pending exchange. -/
theorem kind_hist {s : St} (h : Hist E log s) (hc : unbroken .none log = true) :
    (kind log = .none ↔ s.phase = .notInit ∨ s.phase = .idle) ∧ s.joinState = decide (kind log = .join) := by
  induction h with
  | nil => exact ⟨by decide, by decide⟩
  | @snoc log sa sb op r ev h hv hs ih =>
    rw [unbroken_snoc] at hc
    obtain ⟨hc1, hc2⟩ := Bool.and_eq_true_iff.mp hc
    obtain ⟨i1, i2⟩ := ih hc1
    rw [kind_snoc]
    have hi := Hist.inv h
    by_cases hcf : op.isCfg = true
    · obtain ⟨hev, hcfg⟩ := step_cfg hcf hs
      have hk : (kind log).next ⟨sa, op, r, ev, sb⟩ = kind log := by
        subst hev
        unfold Kind.next
        cases op <;> first | rfl | cases hcf
      have hj : sb.joinState = sa.joinState ∧ sb.phase = sa.phase := by
        exact ⟨hcfg.joinState, hcfg.phase⟩
      rw [hk, hj.1, hj.2]; exact ⟨i1, i2⟩
    cases op with
    | init rg =>
      simp only [step, Except.ok.injEq, Prod.mk.injEq] at hs
      obtain ⟨rfl, rfl, rfl⟩ := hs
      rw [uwanInit_eq]
      have : kind log ≠ .join := by simpa [kind] using hc2
      refine ⟨⟨fun _ => .inr rfl, fun _ => rfl⟩, ?_⟩
      show sa.joinState = _
      rw [i2, decide_eq_false this]; rfl
    | join r1 r2 =>
      obtain ⟨e, rfl, hcs⟩ := step_join hi hs
      cases hcs with
      | state => exact ⟨i1, i2⟩
      | channel => exact ⟨i1, i2⟩
      | sent f d hp =>
        refine ⟨⟨fun h => (by cases h), fun h => ?_⟩, rfl⟩
        rcases h with h | h <;> cases h
    | send p l c rnd =>
      obtain ⟨e, rfl, hcs⟩ := step_send hi hs
      cases hcs with
      | state => exact ⟨i1, i2⟩
      | channel => exact ⟨i1, i2⟩
      | len => exact ⟨i1, i2⟩
      | sent f d hp =>
        have hk := i1.mpr (.inr hp)
        have hj : sa.joinState = false := by rw [i2, hk]; rfl
        refine ⟨⟨fun h => (by cases h), fun h => ?_⟩, ?_⟩
        · unfold sentSt at h
          rw [(adr_keeps _).1] at h
          rcases h with h | h <;> cases h
        · unfold sentSt
          rw [(adr_keeps _).2]; exact hj
    | event m o =>
      have hcs := step_event hi hs
      have key : ∀ {s' : St} {ev0 ev : List Ev} {e : Err}, DlCase E o { sa with phase := .idle } e s' ev →
          (Kind.next (kind log) ⟨sa, .event m o, r, ev0 ++ ev, s'⟩ = .none ↔ s'.phase = .notInit ∨ s'.phase = .idle) ∧
            s'.joinState = decide (Kind.next (kind log) ⟨sa, .event m o, r, ev0 ++ ev, s'⟩ = .join) := by
        intro s' ev0 ev e hdl
        have hn : Kind.next (kind log) ⟨sa, .event m o, r, ev0 ++ ev, s'⟩ = .none := by
          unfold Kind.next
          simp only
          rw [if_neg]
          rw [results_append]
          intro h
          exact hdl.some_result (List.append_eq_nil_iff.mp h).2
        rw [hn]
        obtain ⟨h1, h2⟩ := hdl.dl
        exact ⟨⟨fun _ => .inr h1.phase, fun _ => rfl⟩, h2⟩
      cases hcs with
      | ignore => exact ⟨i1, i2⟩
      | txDone mm ev2 hp hm hmac =>
        have hn : (kind log).next ⟨sa, .event m o, r, [.startTimer .rx1 sa.rx1Delay, .startTimer .rx2 sa.rx2Delay,
            .setup (rx1Pp sa)] ++ ev2, { sa with phase := .rx1, pp := rx1Pp sa, mac := mm }⟩ = kind log := by
          unfold Kind.next
          simp only
          rw [if_pos]
          rw [results_append, results_quiet (macOnTxComplete_quiet hmac)]; rfl
        rw [hn]
        refine ⟨⟨fun h => ?_, fun h => ?_⟩, i2⟩
        · have := i1.mp h; rw [hp] at this; rcases this with h | h <;> cases h
        · rcases h with h | h <;> cases h
      | rx1Timeout d hp hm =>
        refine ⟨⟨fun h => ?_, fun h => ?_⟩, i2⟩
        · have := i1.mp h; rw [hp] at this; rcases this with h | h <;> cases h
        · rcases h with h | h <;> cases h
      | rx1Done _ ev1 hp ht hm hdl => exact key (ev0 := [.stopTimer .rx2]) hdl
      | rx2Timeout _ _ hp hm hdl => exact key (ev0 := []) hdl
      | rx2Done _ _ hp ht hm hdl => exact key (ev0 := []) hdl
    | timer id =>
      obtain ⟨rfl, hev⟩ := step_timer hs
      have hn : (kind log).next ⟨sb, .timer id, r, ev, sb⟩ = kind log := by
        rcases hev with rfl | ⟨rfl, _⟩ <;> rfl
      rw [hn]; exact ⟨i1, i2⟩
    | _ => exact absurd rfl hcf

end Uwan
