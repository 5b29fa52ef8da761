import Verif.Lemmas.Observe

/-! Single operations at the end of a history. -/

namespace Uwan
open Spec

variable {E : Env}

theorem Hist.last {log : List Item} {it : Item} {s' : St} (h : Hist E (log ++ [it]) s') :
    ∃ s, Hist E log s ∧ it.pre = s ∧ it.post = s' ∧ it.op.Valid ∧ step E s it.op = .ok (it.ret, s', it.ev) := by
  obtain ⟨s, h1, h2⟩ := Seg.split h log [it] rfl
  obtain ⟨e1, e2, hv, hs⟩ := h2.one_inv
  exact ⟨s, h1, e1, e2, hv, hs⟩

theorem Hist.prefix {a b : List Item} {s' : St} (h : Hist E (a ++ b) s') : ∃ s, Hist E a s ∧ Seg E s b s' :=
  Seg.split h a b rfl

/-- Every item of a history is a step from a state reached by the items before it. -/
theorem Hist.mem {log : List Item} {s : St} (h : Hist E log s) {it : Item} (hi : it ∈ log) :
    ∃ a b, log = a ++ [it] ++ b ∧ Hist E (a ++ [it]) it.post := by
  obtain ⟨a, b, rfl⟩ := List.append_of_mem hi
  refine ⟨a, b, by simp, ?_⟩
  obtain ⟨s1, h1, h2⟩ := Hist.prefix (a := a ++ [it]) (b := b) (by simpa using h)
  obtain ⟨_, _, _, e, _⟩ := h1.last
  rw [e]; exact h1

/-- An uplink was accepted. -/
structure Accepted (E : Env) (log : List Item) (it : Item) (port : Byte) (pld : Bytes) (c : Bool) (rnd : Nat) (s : St)
    (f : U32) (d : Sf × Bw) : Prop where
  hist : Hist E log s
  inv : Inv s
  phase : s.phase = .idle
  get : channelsGetNext s.chan rnd = .ok f
  pick : IsPick s.chan f
  room : pld.length ≤ getMaxPayloadSize s
  any : pld.length ≠ 0 ∨ s.mac.queue.length ≠ 0
  dr : drTable (currentDr s) = some d
  ev : it.ev = sentEv E s d f port pld c

theorem Hist.accepted {log : List Item} {it : Item} {s' : St} {port : Byte} {pld : Bytes} {c : Bool} {rnd : Nat}
    (h : Hist E (log ++ [it]) s') (hop : it.op = .send port pld c rnd) (hr : it.ret = .err .no) :
    ∃ s f d, Accepted E log it port pld c rnd s f d := by
  obtain ⟨s, h1, -, -, -, hs⟩ := h.last
  rw [hop] at hs
  obtain ⟨e, he, hc⟩ := step_send h1.inv hs
  rw [hr] at he
  cases he
  cases hc' : it.ev with
  | nil => rw [hc'] at hc; cases hc
  | cons x l =>
    rw [← hc'] at *
    generalize hev : it.ev = ev at *
    cases hc with
    | sent f d hp hg hf hl hn hd hd1 hd2 hlen =>
      exact ⟨s, f, d, h1, h1.inv, hp, hg, hf, hl, by omega, hd, hev⟩

/-- A join-request was accepted. -/
structure JoinSent (E : Env) (log : List Item) (it : Item) (r1 r2 : Nat) (s : St) (f : U32) (d : Sf × Bw) : Prop where
  hist : Hist E log s
  inv : Inv s
  phase : s.phase = .idle
  get : channelsGetNext s.chan r1 = .ok f
  pick : IsPick s.chan f
  dr : drTable s.defaultDr = some d
  ev : it.ev = joinEv E s d f r2

theorem Hist.joinSent {log : List Item} {it : Item} {s' : St} {r1 r2 : Nat} (h : Hist E (log ++ [it]) s')
    (hop : it.op = .join r1 r2) (hr : it.ret = .err .no) : ∃ s f d, JoinSent E log it r1 r2 s f d := by
  obtain ⟨s, h1, -, -, -, hs⟩ := h.last
  rw [hop] at hs
  obtain ⟨e, he, hc⟩ := step_join h1.inv hs
  rw [hr] at he
  cases he
  generalize hev : it.ev = ev at *
  cases hc with
  | sent f d hp hg hf hd hd1 hd2 => exact ⟨s, f, d, h1, h1.inv, hp, hg, hf, hd, hev⟩

theorem txDr_eq (s : St) : (cfgOf s).txDr = currentDr s := by
  unfold Cfg.txDr currentDr; rfl

theorem maxAppPldSize_eq {n : Nat} (h : n < 6) : maxAppPldSize n = some (maxPayload n) := by
  have : n = 0 ∨ n = 1 ∨ n = 2 ∨ n = 3 ∨ n = 4 ∨ n = 5 := by omega
  rcases this with rfl | rfl | rfl | rfl | rfl | rfl <;> rfl

theorem room_eq {s : St} (h : Inv s) : (cfgOf s).room = getMaxPayloadSize s := by
  unfold Cfg.room getMaxPayloadSize
  rw [txDr_eq, maxAppPldSize_eq (currentDr_lt h)]
  show maxPayload (currentDr s) - s.mac.queue.length = _
  simp only [Option.getD_some]
  split <;> omega

/-- The blocks encrypted for an uplink. -/
theorem encLoop_blocks (E : Env) (key : Block) (dir : Byte) (addr fcnt : U32) : ∀ (n i : Nat) (l : Bytes) (b : Block),
    Ev.aesEncrypt b ∈ (encLoop (E.aes key) dir addr fcnt n (BitVec.ofNat 8 i) l).2 →
    ∃ j, b = blockA dir.toNat addr.toNat fcnt.toNat j
  | 0, _, [], b, h => by simp [encLoop] at h
  | 0, _, _ :: _, b, h => by simp [encLoop] at h
  | _ + 1, _, [], b, h => by simp [encLoop] at h
  | n + 1, i, x :: l, b, h => by
    simp only [encLoop, List.mem_cons, Ev.aesEncrypt.injEq] at h
    rcases h with h | h
    · exact ⟨i, by rw [h, aBlock_eq]⟩
    · have e : (BitVec.ofNat 8 i + 1 : Byte) = BitVec.ofNat 8 (i + 1) := by
        rw [BitVec.ofNat_add]; rfl
      rw [e] at h
      exact encLoop_blocks E key dir addr fcnt n (i + 1) _ b h

theorem buildUplink_blocks {s : St} {p : Byte} {l : Bytes} {c : Bool} {b : Block}
    (h : Ev.aesEncrypt b ∈ (buildUplink E s p l c).2) :
    ∃ j, b = blockA 0 s.session.devAddr.toNat s.session.fCntUp.toNat j := by
  unfold buildUplink at h
  simp only [List.mem_append] at h
  rcases h with h | h
  · split at h
    · unfold encryptPayload at h
      simp only [List.cons_append, List.mem_cons, reduceCtorEq, List.mem_append, List.not_mem_nil, or_false, false_or] at h
      exact encLoop_blocks E s.session.appSKey 0 s.session.devAddr s.session.fCntUp l.length 1 l b h
    · simp at h
  · simp [calcMic] at h

theorem sentEv_blocks {s : St} {d : Sf × Bw} {f : U32} {p : Byte} {l : Bytes} {c : Bool} {b : Block}
    (h : Ev.aesEncrypt b ∈ sentEv E s d f p l c) :
    ∃ j, b = blockA 0 s.session.devAddr.toNat s.session.fCntUp.toNat j := by
  unfold sentEv txSetup at h
  simp only [List.cons_append, List.nil_append, List.mem_cons, reduceCtorEq, List.mem_append, List.not_mem_nil, or_false,
    false_or] at h
  exact buildUplink_blocks h

/-- The counter can be read off an encryption block. -/
theorem blockA_cnt {dir a c i dir' a' c' i' : Nat} (h : blockA dir a c i = blockA dir' a' c' i') (hc : c < 2 ^ 32)
    (hc' : c' < 2 ^ 32) : c = c' := by
  have h := congrArg (fun b : Block => leNat ((b.toList.drop 10).take 4)) h
  have key : ∀ dir a c i, leNat (((blockA dir a c i).toList.drop 10).take 4) = c % 2 ^ 32 := by
    intro dir a c i
    rw [blockA, blockOf_toList (by simp [leBytes_length])]
    have e : ([1, 0, 0, 0, 0, BitVec.ofNat 8 dir] ++ leBytes 4 a ++ leBytes 4 c ++ [0, BitVec.ofNat 8 i] : Bytes) =
        ([1, 0, 0, 0, 0, BitVec.ofNat 8 dir] ++ leBytes 4 a) ++ (leBytes 4 c ++ [0, BitVec.ofNat 8 i]) := by simp
    rw [e, List.drop_left' (by simp [leBytes_length]), List.take_left' (by simp [leBytes_length]), leNat_leBytes]
  simp only [key] at h
  rwa [Nat.mod_eq_of_lt hc, Nat.mod_eq_of_lt hc'] at h

/-! ### Counting uplinks in a session -/

theorem up_lt {log : List Item} {s : St} (h : Hist E log s) : (view E log).up < 2 ^ 32 := by
  rw [(view_hist h).up]; exact (s.session.fCntUp).isLt

/-- The uplink counter of the view while no new session starts. -/
theorem view_up (log seg : List Item) (h : ∀ x ∈ seg, newSession x = false) :
    (view E (log ++ seg)).up % 2 ^ 32 = ((view E log).up + sentCount seg) % 2 ^ 32 := by
  have key : ∀ (seg : List Item) (v : View), (∀ x ∈ seg, newSession x = false) →
      (seg.foldl (View.next E) v).up % 2 ^ 32 = (v.up + sentCount seg) % 2 ^ 32 := by
    intro seg
    induction seg with
    | nil => intro v _; simp [sentCount]
    | cons it l ih =>
      intro v h
      rw [List.foldl_cons, ih _ (fun x hx => h x (by simp [hx]))]
      have hn := h it (by simp)
      have hc : sentCount (it :: l) = sentCount l + sentCount [it] := by
        simp only [sentCount, List.countP_cons, List.countP_nil, Nat.zero_add]
      rw [hc]
      unfold newSession at hn
      unfold View.next sentCount
      cases hop : it.op <;> simp only [hop] at hn ⊢ <;> try (simp [hop]; done)
      · simp at hn
      · simp at hn
      · split <;> simp [hop]
      · by_cases hr : it.ret = .err .no
        · simp only [hr, ↓reduceIte, List.countP_cons, List.countP_nil, hop]
          simp only [beq_self_eq_true, ↓reduceIte]
          omega
        · simp only [hr, ↓reduceIte, List.countP_cons, List.countP_nil, hop]
          simp [hr]
      · simp [hn, hop]
  unfold view
  rw [List.foldl_append]
  exact key seg _ h

/-- Address and keys stay while no new session starts. -/
theorem view_keep (log seg : List Item) (h : ∀ x ∈ seg, newSession x = false) :
    (view E (log ++ seg)).nwk = (view E log).nwk ∧ (view E (log ++ seg)).app = (view E log).app ∧
    (view E (log ++ seg)).addr = (view E log).addr := by
  have key : ∀ (seg : List Item) (v : View), (∀ x ∈ seg, newSession x = false) →
      (seg.foldl (View.next E) v).nwk = v.nwk ∧ (seg.foldl (View.next E) v).app = v.app ∧
      (seg.foldl (View.next E) v).addr = v.addr := by
    intro seg
    induction seg with
    | nil => intro v _; exact ⟨rfl, rfl, rfl⟩
    | cons it l ih =>
      intro v h
      obtain ⟨i1, i2, i3⟩ := ih (v.next E it) (fun x hx => h x (by simp [hx]))
      rw [List.foldl_cons, i1, i2, i3]
      have hn := h it (by simp)
      unfold newSession at hn
      unfold View.next
      cases hop : it.op <;> simp only [hop] at hn ⊢ <;> try exact ⟨trivial, trivial, trivial⟩
      · exact Bool.noConfusion hn
      · exact Bool.noConfusion hn
      · split <;> exact ⟨rfl, rfl, rfl⟩
      · split <;> exact ⟨rfl, rfl, rfl⟩
      · rw [hn]; exact ⟨rfl, rfl, rfl⟩
  unfold view
  rw [List.foldl_append]
  exact key seg _ h

/-- Only radio events report results. -/
theorem no_report {s s' : St} {op : Op} {r : Ret} {ev : List Ev} (hi : Inv s) (hs : step E s op = .ok (r, s', ev))
    (ho : ∀ m o, op ≠ .event m o) : ∀ e m p, Ev.downlink e m p ∉ ev := by
  intro e m p hm
  have hq : ∀ q, Quiet q → Ev.downlink e m p ∉ q := fun q h hx => Bool.noConfusion (h.all _ hx)
  by_cases hc : op.isCfg = true
  · obtain ⟨rfl, -⟩ := step_cfg hc hs; simp at hm
  cases op with
  | init rg =>
    simp only [step, Except.ok.injEq, Prod.mk.injEq] at hs
    obtain ⟨-, -, rfl⟩ := hs
    simp [uwanInit] at hm
  | join r1 r2 =>
    obtain ⟨e, rfl, hc⟩ := step_join hi hs
    cases hc with
    | state => simp at hm
    | channel => simp at hm
    | sent f d =>
      simp only [joinEv, txSetup, List.mem_append, List.mem_cons, reduceCtorEq, List.not_mem_nil, or_false, false_or] at hm
      exact hq _ (buildJoin_quiet ..) hm
  | send p l c rnd =>
    obtain ⟨e, rfl, hc⟩ := step_send hi hs
    cases hc with
    | state => simp at hm
    | channel => simp at hm
    | len => simp at hm
    | sent f d =>
      simp only [sentEv, txSetup, List.mem_append, List.mem_cons, reduceCtorEq, List.not_mem_nil, or_false, false_or] at hm
      exact hq _ (buildUplink_quiet ..) hm
  | timer id =>
    obtain ⟨rfl, hev⟩ := step_timer hs
    rcases hev with rfl | ⟨rfl, _⟩ <;> simp at hm
  | event m o => exact ho m o rfl
  | _ => exact absurd rfl hc

theorem joinReported_mem {ev : List Ev} (h : joinReported ev = true) : ∃ e m p, Ev.downlink e m p ∈ ev := by
  unfold joinReported at h
  obtain ⟨x, hx, hf⟩ := List.any_eq_true.mp h
  cases x <;> simp at hf
  exact ⟨_, _, _, hx⟩

/-- The counter a new session starts with. -/
theorem view_first {log : List Item} {it : Item} {s : St} (h : Hist E (log ++ [it]) s) (hn : newSession it = true) :
    (view E (log ++ [it])).up = firstCount it := by
  obtain ⟨s0, h1, -, -, -, hs⟩ := h.last
  rw [view_snoc]
  have key : (∀ m o, it.op ≠ .event m o) → joinReported it.ev = false := by
    intro ho
    cases hj : joinReported it.ev with
    | false => rfl
    | true =>
      obtain ⟨e, m, p, hm⟩ := joinReported_mem hj
      exact absurd hm (no_report h1.inv hs ho e m p)
  unfold newSession at hn
  unfold View.next firstCount
  cases hop : it.op <;> simp only [hop] at hn ⊢
  case event m o => simp [hn, View.accept]
  all_goals
    rw [key (by intro m o; rw [hop]; exact nofun)] at hn
    simp at hn

end Uwan
