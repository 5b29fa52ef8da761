import Verif.Lemmas.Network
import Verif.Spec.Attacker

/-! # Lemmas about an attacker on the air (C135, C136) -/

namespace Uwan
open Spec

variable {E : Env} {log : List Item} {it : Item} {s' : St}

theorem micInput_inj {dir dir2 addr a b : Nat} {x y : Bytes} (h : micInput dir addr a x = micInput dir2 addr b y) (hd : dir ≤ 1)
    (hd2 : dir2 ≤ 1) (ha : a < 2 ^ 32) (hb : b < 2 ^ 32) : dir = dir2 ∧ a = b ∧ x = y := by
  unfold micInput at h
  obtain ⟨h1, h2⟩ := List.append_inj h (by simp [bytesB0, leBytes])
  unfold bytesB0 at h1
  obtain ⟨h3, -⟩ := List.append_inj h1 (by simp [leBytes])
  obtain ⟨h4, h5⟩ := List.append_inj h3 (by simp [leBytes])
  obtain ⟨h6, -⟩ := List.append_inj h4 (by simp)
  refine ⟨?_, leBytes_inj (n := 4) ha hb h5, h2⟩
  simp only [List.cons.injEq, and_true, true_and] at h6
  have := congrArg BitVec.toNat h6
  simp only [BitVec.toNat_ofNat] at this
  omega

/-- A frame is what is signed and the integrity code. -/
theorem frame_split {l : Bytes} : l = signed l ++ l.drop (l.length - 4) := (List.take_append_drop _ _).symm

theorem parse_mic {l : Bytes} {f : DataFrame} (h : parse l = some f) : f.mic = l.drop (l.length - 4) := by
  unfold parse at h
  simp only at h
  split at h
  · cases h
  · cases h; rfl

/-! ### Uplinks -/

theorem uplinks_mem {seg : List Item} : ∀ {log : List Item} {cnt : Nat} {u : Uplink}, u ∈ uplinks E log cnt seg →
    ∃ pre it post, seg = pre ++ it :: post ∧ uplinkOf E (log ++ pre) it = some u.msg ∧ u.frames = txs it.ev ∧
      u.cnt = cnt + sentCount pre := by
  induction seg with
  | nil => intro log cnt u h; cases h
  | cons x seg ih =>
    intro log cnt u h
    unfold uplinks at h
    have step : ∀ {c : Nat}, u ∈ uplinks E (log ++ [x]) c seg → c = cnt + sentCount [x] →
        ∃ pre it post, x :: seg = pre ++ it :: post ∧ uplinkOf E (log ++ pre) it = some u.msg ∧ u.frames = txs it.ev ∧
          u.cnt = cnt + sentCount pre := by
      intro c hc e
      obtain ⟨pre, it, post, k1, k2, k3, k4⟩ := ih hc
      refine ⟨x :: pre, it, post, by rw [k1]; rfl, by simpa using k2, k3, ?_⟩
      rw [k4, e, sentCount_cons (E := E) (log := log), sentCount_cons (E := E) (log := log)]
      simp [sentCount]
      omega
    have hx := sentCount_cons (E := E) (log := log) x []
    split at h
    · next m hm =>
      rw [hm] at hx
      rcases List.mem_cons.1 h with rfl | h
      · exact ⟨[], x, seg, rfl, by simpa using hm, rfl, by simp [sentCount]⟩
      · exact step h (by rw [hx]; simp [sentCount])
    · next hm =>
      rw [hm] at hx
      exact step h (by rw [hx]; simp [sentCount])

theorem uplinks_from {seg : List Item} : ∀ {log : List Item} {cnt : Nat}, ∀ u ∈ uplinks E log cnt seg, cnt ≤ u.cnt := by
  intro log cnt u hu
  obtain ⟨pre, it, post, -, -, -, k⟩ := uplinks_mem hu
  omega

theorem uplinks_sorted {seg : List Item} : ∀ {log : List Item} {cnt : Nat}, (uplinks E log cnt seg).Pairwise (·.cnt < ·.cnt) := by
  induction seg with
  | nil => intro log cnt; exact .nil
  | cons x seg ih =>
    intro log cnt
    unfold uplinks
    split
    · refine .cons (fun u hu => ?_) ih
      have := uplinks_from u hu
      show cnt < u.cnt
      omega
    · exact ih

theorem filter_wider {α : Type} {p q : α → Bool} (h : ∀ x, p x = true → q x = true) : ∀ {l : List α}, (l.filter p).Sublist (l.filter q) := by
  intro l
  induction l with
  | nil => exact .slnil
  | cons a l ih =>
    rw [List.filter_cons, List.filter_cons]
    by_cases hp : p a = true
    · rw [if_pos hp, if_pos (h a hp)]; exact .cons_cons _ ih
    · rw [if_neg hp]
      split
      · exact .cons _ ih
      · exact ih

/-- Out of a sorted list: one element, and those behind it. -/
theorem sorted_from {α : Type} {f : α → Nat} : ∀ {us : List α} {u : α}, us.Pairwise (fun a b => f a < f b) → u ∈ us → ∀ {k : Nat}, k ≤ f u →
    (u :: us.filter (fun x => f u + 1 ≤ f x)).Sublist (us.filter fun x => k ≤ f x) := by
  intro us
  induction us with
  | nil => intro u _ h; cases h
  | cons a us ih =>
    intro u hs hu k hk
    obtain ⟨h1, h2⟩ := List.pairwise_cons.1 hs
    rcases List.mem_cons.1 hu with rfl | hu
    · rw [List.filter_cons, if_neg (by simp), List.filter_cons, if_pos (by simpa using hk)]
      refine .cons_cons _ ?_
      refine filter_wider fun x hx => ?_
      simp only [decide_eq_true_eq] at hx ⊢
      omega
    · have := h1 u hu
      rw [List.filter_cons, if_neg (by simp; omega), List.filter_cons]
      have i := ih h2 hu hk
      split
      · exact .cons _ i
      · exact i

theorem serve_attacked {down : Nat} {seg : List Item} {sent : List (Nat × Downlink)} {n0 : Server} (h : Hist E (log ++ seg) s')
    (hseg : ∀ x ∈ seg, newSession x = false) (hport : ∀ x ∈ seg, ∀ pld c r, x.op ≠ .send 0 pld c r)
    (h1 : n0.nwk = (view E log).nwk) (h2 : n0.app = (view E log).app) (h3 : n0.addr = (view E log).addr)
    (h4 : (view E log).up = n0.next % 2 ^ 32) (hb : n0.next + sentCount seg ≤ 2 ^ 32) : ∀ (rx : List Bytes) (n : Server),
    n.nwk = n0.nwk → n.app = n0.app → n.addr = n0.addr → n0.next ≤ n.next →
    (∀ l ∈ rx, Unforged E n0 down (uplinks E log n0.next seg) sent l) →
    (n.serve E rx).Sublist (((uplinks E log n0.next seg).filter fun u => n.next ≤ u.cnt).map (·.msg)) := by
  intro rx
  induction rx with
  | nil => intro n _ _ _ _ _; exact List.nil_sublist _
  | cons l rx ih =>
    intro n e1 e2 e3 hle hf
    unfold Server.serve
    split
    rotate_left
    · exact ih n e1 e2 e3 hle fun x hx => hf x (by simp [hx])
    next m n' hr =>
    have hrec := hr
    unfold Server.recv at hr
    split at hr
    · cases hr
    next f hp =>
    simp only at hr
    split at hr
    rotate_left
    · cases hr
    next hc =>
    obtain ⟨c1, c2, c3, c4, c5⟩ := hc
    rw [parse_mic hp] at c5
    have hm := hf l (by simp) 0 _ (by omega) c4 (by rw [← e1, ← e3]; exact c5)
    generalize hcc : fullCount n.next f.fCnt = c at *
    have hcn : n.next ≤ c ∧ c < n.next + 65536 := by subst hcc; unfold fullCount; omega
    generalize hx : micInput 0 n0.addr c (signed l) = x at hm
    cases hm with
    | oldUp c' m' hlt hlt' =>
      obtain ⟨-, rfl, -⟩ := micInput_inj hx (by omega) (by omega) c4 hlt'
      omega
    | oldDown c' m' h0 hle' hlt' =>
      exact absurd (micInput_inj hx (by omega) (by omega) c4 hlt').1 (by omega)
    | down c' D hD =>
      have : bytesB0 0 n0.addr c (signed l).length = bytesB0 1 n0.addr c' (signed (D.build E n0.nwk n0.app n0.addr c')).length :=
        (List.append_inj hx (by simp [bytesB0, leBytes])).1
      exact absurd (congrArg (fun l => l.getD 5 0) this) (by simp [bytesB0])
    | up u l' hu hl' =>
      obtain ⟨pre, it, post, g1, g2, g3, g4⟩ := uplinks_mem hu
      have hpre : ∀ x ∈ pre, newSession x = false := fun x hx => hseg x (by rw [g1]; simp [hx])
      have hit : it ∈ seg := by rw [g1]; simp
      have hsc : sentCount pre + 1 ≤ sentCount seg := by
        have : sentCount seg = sentCount pre + sentCount (it :: post) := by rw [g1]; simp [sentCount]
        rw [this, sentCount_cons (E := E) (log := log ++ pre), g2]
        simp
      have huc : u.cnt < 2 ^ 32 := by omega
      obtain ⟨-, hcu, hsg⟩ := micInput_inj hx (by omega) (by omega) c4 huc
      rw [g1, show log ++ (pre ++ it :: post) = (log ++ pre) ++ [it] ++ post by simp] at h
      obtain ⟨s1, hH, -⟩ := Hist.prefix (a := log ++ pre ++ [it]) h
      obtain ⟨v1, v2, v3⟩ := view_keep (E := E) log pre hpre
      obtain ⟨s2, hH2, -⟩ := Hist.prefix (a := log ++ pre) hH
      have v4 := view_up (E := E) log pre hpre
      rw [Nat.mod_eq_of_lt (up_lt hH2), h4] at v4
      have v5 : (view E (log ++ pre)).up = n.next + (c - n.next) := by rw [v4, hcu, g4]; omega
      have hl2 : l' ∈ txs it.ev := g3 ▸ hl'
      have hrr := recv_uplink hH g2 hl2 (by rw [e1, h1, v1]) (by rw [e2, h2, v2]) (by rw [e3, h3, v3]) v5 (by omega) (hport it hit)
      have hll : l = l' := by
        unfold Server.recv at hrr
        split at hrr
        · cases hrr
        next f' hp' =>
        simp only at hrr
        split at hrr
        rotate_left
        · cases hrr
        next hc' =>
        obtain ⟨-, -, -, -, d5⟩ := hc'
        rw [parse_mic hp'] at d5
        have hfc : fullCount n.next f'.fCnt = c := by
          simp only [Option.some.injEq, Prod.mk.injEq] at hrr
          have := congrArg Server.next hrr.2
          simp only at this
          omega
        rw [hfc, ← hsg, ← c5] at d5
        rw [@frame_split l, @frame_split l', hsg, d5]
      subst hll
      rw [hrr] at hrec
      simp only [Option.some.injEq, Prod.mk.injEq] at hrec
      obtain ⟨rfl, rfl⟩ := hrec
      have i := ih { n with next := n.next + (c - n.next) + 1 } e1 e2 e3 (by simp only; omega) fun x hx => hf x (by simp [hx])
      simp only at i
      have hs := sorted_from (f := Uplink.cnt) uplinks_sorted hu (k := n.next) (by omega)
      have := hs.map (·.msg)
      refine List.Sublist.trans ?_ this
      rw [List.map_cons]
      refine .cons_cons _ ?_
      rw [show n.next + (c - n.next) + 1 = u.cnt + 1 by omega] at i ⊢
      exact i

/-! ### Downlinks -/

theorem micInput_dir {addr a b : Nat} {x y : Bytes} : micInput 0 addr a x ≠ micInput 1 addr b y := by
  intro h
  have := (List.append_inj h (by simp [bytesB0, leBytes])).1
  exact absurd (congrArg (fun l => l.getD 5 0) this) (by simp [bytesB0])

theorem nextDown_grows {c f d : Nat} (h : nextDown c f = some d) (hc : c + 131071 < 2 ^ 32) (hf : f < 65536) :
    (c = 0 ∨ c < d) ∧ d ≤ c + 131071 := by
  by_cases h0 : c = 0
  · unfold nextDown at h
    simp only [if_pos h0, Option.some.injEq] at h
    exact ⟨.inl h0, by omega⟩
  · have := nextDown_gt h h0 hc hf
    exact ⟨.inr this.1, this.2⟩

theorem reports_results (ev : List Ev) : reports ev = (results ev).length := by
  unfold reports results
  rw [List.countP_eq_length_filter, List.length_filterMap_eq_countP, List.countP_eq_length_filter]
  congr 1
  apply List.filter_congr
  intro y _
  cases y <;> rfl

/-- An accepted frame out of a genuine one. -/
theorem handed_build (D : Downlink) (v : View) {down cnt : Nat} (ha : v.addr < 2 ^ 32) (hf : D.fOpts.length ≤ 15)
    (hn : nextDown down (cnt % 65536) = some cnt) (hv : verdict E v down (D.build E v.nwk v.app v.addr cnt) = .no)
    (rssi : BitVec 16) (snr : BitVec 8) : handed E v down (D.build E v.nwk v.app v.addr cnt) rssi snr = D.shown rssi snr := by
  obtain ⟨f, hp, h1, -, h3, h4, -⟩ := build_parse D E v.nwk v.app v.addr cnt ha hf
  unfold handed Downlink.shown
  rw [hv, hp]
  simp only [h1, h3, h4, hn, Option.getD_some]
  cases hb : D.body with
  | none => rfl
  | some b =>
    obtain ⟨port, pld⟩ := b
    have : (if port.toNat = 0 then v.nwk else v.app) = if port = 0 then v.nwk else v.app := by
      by_cases hz : port = 0
      · subst hz; rfl
      · rw [if_neg (by simpa [← BitVec.toNat_inj] using hz), if_neg hz]
    simp only [Option.map_some, Option.getD_some, this, crypt_crypt]
    simp

/-- One operation under attack: nothing is delivered, or a downlink of the network whose counter is ahead. -/
theorem heard_attacked {n : Server} {down : Nat} {ups : List Uplink} {sent : List (Nat × Downlink)} (h : Hist E (log ++ [it]) s')
    (hn : newSession it = false) (h1 : n.nwk = (view E log).nwk) (h2 : n.app = (view E log).app) (h3 : n.addr = (view E log).addr)
    (hs : ∀ d ∈ sent, d.1 < 2 ^ 32 ∧ d.2.fOpts.length ≤ 15) (hle : down ≤ (config E log).down)
    (hb : (config E log).down + 131071 * reports it.ev < 2 ^ 32)
    (hu : ∀ l, outcome log it = .packet l → Unforged E n down ups sent l) :
    (config E log).down ≤ (config E (log ++ [it])).down ∧
    (config E (log ++ [it])).down ≤ (config E log).down + 131071 * reports it.ev ∧
    (delivered [it] = [] ∨ ∃ c D, (c, D) ∈ sent ∧ delivered [it] = [D.told] ∧ (config E (log ++ [it])).down = c ∧
      ((config E log).down = 0 ∨ (config E log).down < c)) := by
  obtain ⟨-, -, -, hdn⟩ := down_next h hn
  have hone : ∀ {r}, results it.ev = [r] → reports it.ev = 1 := fun hr => by rw [reports_results, hr]; rfl
  have hgr : (config E log).down ≤ (config E (log ++ [it])).down ∧
      (config E (log ++ [it])).down ≤ (config E log).down + 131071 * reports it.ev := by
    rcases hdn with e | ⟨l, f, d, ho, hj, hp, hd, e⟩
    · rw [e]; exact ⟨Nat.le_refl _, Nat.le_add_right ..⟩
    · obtain ⟨s, m, o, mt, G, -⟩ := h.gotData ho hj
      rw [hone G.results] at hb ⊢
      have := nextDown_grows hd (by omega) (parse_fCnt hp)
      rw [e]
      omega
  refine ⟨hgr.1, hgr.2, ?_⟩
  have hdel : ∀ {r}, results it.ev = [r] → r.1 ≠ .no → delivered [it] = [] := by
    intro r hr hne
    unfold delivered
    simp only [List.flatMap_cons, List.flatMap_nil, List.append_nil, hr]
    simp [hne]
  have hv := C27_verdict h
  cases hout : outcome log it with
  | none => rw [hout] at hv; simp only at hv; left; simp [delivered, hv]
  | timeout => rw [hout] at hv; exact .inl (hdel hv (by decide))
  | crc => rw [hout] at hv; exact .inl (hdel hv (by decide))
  | packet l =>
    cases hj : (config E log).joining with
    | true =>
      left
      obtain ⟨s, m, o, mt, p, G, -⟩ := h.gotJoin hout hj
      refine hdel G.results fun hno => ?_
      have hr : report it.ev = some .no := by rw [report_results, G.results]; exact congrArg some hno
      have := joinReported_iff h G.op
      unfold newSession at hn
      rw [G.op] at hn
      simp only at hn
      rw [hn, hj, hr] at this
      simp at this
    | false =>
      obtain ⟨s, m, o, mt, G, -⟩ := h.gotData hout hj
      by_cases hno : verdict E (view E log) (config E log).down l = .no
      rotate_left
      · exact .inl (hdel G.results hno)
      right
      have hno' := hno
      rw [verdict_accepted] at hno'
      obtain ⟨a1, a2, a3, a4, f, d, hp, hd, hm⟩ := hno'
      have hrep := hone G.results
      rw [hrep] at hb
      have hgrow := nextDown_grows hd (by omega) (parse_fCnt hp)
      have hd32 : d < 2 ^ 32 := by omega
      have hcfg : (config E (log ++ [it])).down = d := by
        rw [← config_hist h, G.cfg]
        show ((config E log).receive o l _).down = d
        rw [receive_down, if_pos (.inl hno), hp]
        simp [hd]
      have hmade := hu l hout 1 d (by omega) hd32 (by rw [← parse_mic hp, h1, h3]; exact hm)
      generalize hx : micInput 1 n.addr d (signed l) = x at hmade
      cases hmade with
      | oldUp => exact absurd hx.symm micInput_dir
      | up => exact absurd hx.symm micInput_dir
      | oldDown c m' h0 hc hc' =>
        obtain ⟨-, rfl, -⟩ := micInput_inj hx (by omega) (by omega) hd32 hc'
        omega
      | down c D hD =>
        obtain ⟨hc, hf⟩ := hs _ hD
        simp only at hc hf
        obtain ⟨-, rfl, hsg⟩ := micInput_inj hx (by omega) (by omega) hd32 hc
        have haddr : (view E log).addr < 2 ^ 32 := by
          rw [← a4]
          have := leNat_lt ((l.drop 1).take 4)
          have h4 : ((l.drop 1).take 4).length ≤ 4 := by simp; omega
          have : 256 ^ ((l.drop 1).take 4).length ≤ 256 ^ 4 := Nat.pow_le_pow_right (by decide) h4
          omega
        rw [h1, h2, h3] at hsg
        obtain ⟨f', b1, b2, -, -, -, b3, -, -, -, -, b4⟩ := build_parse D E (view E log).nwk (view E log).app (view E log).addr d haddr hf
        have hl : l = D.build E (view E log).nwk (view E log).app (view E log).addr d := by
          rw [@frame_split l, @frame_split (D.build E (view E log).nwk (view E log).app (view E log).addr d), ← parse_mic hp,
            ← parse_mic b1, hm, b3, hsg]
        refine ⟨d, D, hD, ?_, hcfg, hgrow.1⟩
        have hpf : f.fCnt = d % 65536 := by
          rw [hl, b1] at hp
          cases hp
          exact b2
        rw [hpf] at hd
        have hh := handed_build D (view E log) haddr hf hd (by rw [← hl]; exact hno) o.rssi o.snr
        rw [← hl] at hh
        have hmt : mt.toNat = if D.confirmed then 5 else 3 := by
          cases hlc : l with
          | nil => rw [hlc] at a1; simp at a1
          | cons b r =>
            rw [G.mtype b r hlc]
            have := (build_parse D E (view E log).nwk (view E log).app (view E log).addr d haddr hf).choose_spec.2.2.2.2.2.2.2.1
            rw [← hl, hlc] at this
            simp only [List.take_succ_cons, List.take_zero, leNat] at this
            split at this <;> simp_all <;> omega
        unfold delivered
        simp only [List.flatMap_cons, List.flatMap_nil, List.append_nil, G.results, hno, hh]
        unfold Downlink.shown Downlink.told
        cases D.body with
        | none => simp [hmt]
        | some x => obtain ⟨p, l⟩ := x; simp [hmt]

theorem filter_upto {α : Type} {f : α → Nat} : ∀ {us : List α} {u : α}, us.Pairwise (fun a b => f a < f b) → u ∈ us → ∀ {k : Nat}, k < f u →
    (us.filter (fun x => f x ≤ k) ++ [u]).Sublist (us.filter fun x => f x ≤ f u) := by
  intro us
  induction us with
  | nil => intro u _ h; cases h
  | cons a us ih =>
    intro u hs hu k hk
    obtain ⟨h1, h2⟩ := List.pairwise_cons.1 hs
    rcases List.mem_cons.1 hu with rfl | hu
    · have : us.filter (fun x => decide (f x ≤ k)) = [] := by
        rw [List.filter_eq_nil_iff]
        intro x hx
        have := h1 x hx
        simp; omega
      rw [List.filter_cons, if_neg (by simp; omega), this, List.filter_cons, if_pos (by simp)]
      exact .cons_cons _ (List.nil_sublist _)
    · have := h1 u hu
      have i := ih h2 hu hk
      rw [List.filter_cons, List.filter_cons, if_pos (c := decide (f a ≤ f u) = true) (by simp; omega)]
      split
      · exact .cons_cons _ i
      · exact .cons _ i

theorem trace_reports (seg : List Item) (x : Item) : reports (trace (seg ++ [x])) = reports (trace seg) + reports x.ev := by
  unfold trace reports
  rw [List.flatMap_append, List.countP_append]
  simp

/-- Operations under attack. -/
theorem seg_attacked {n : Server} {down : Nat} {ups : List Uplink} {sent : List (Nat × Downlink)} {seg : List Item}
    (h1 : n.nwk = (view E log).nwk) (h2 : n.app = (view E log).app) (h3 : n.addr = (view E log).addr)
    (hs : ∀ d ∈ sent, d.1 < 2 ^ 32 ∧ d.2.fOpts.length ≤ 15) (hd : down = (config E log).down) :
    ∀ {s' : St}, Hist E (log ++ seg) s' → (∀ x ∈ seg, newSession x = false) → down + 131071 * reports (trace seg) < 2 ^ 32 →
    (∀ pre x post l, seg = pre ++ x :: post → outcome (log ++ pre) x = .packet l → Unforged E n down ups sent l) →
    down ≤ (config E (log ++ seg)).down ∧ (config E (log ++ seg)).down ≤ down + 131071 * reports (trace seg) ∧
    (∀ t ∈ delivered seg, t ∈ sent.map (·.2.told)) ∧
    (sent.Pairwise (·.1 < ·.1) → (∀ d ∈ sent, 0 < d.1) →
      (delivered seg).Sublist ((sent.filter fun d => d.1 ≤ (config E (log ++ seg)).down).map (·.2.told))) := by
  refine snoc_induction (P := fun seg => ∀ {s' : St}, Hist E (log ++ seg) s' → (∀ x ∈ seg, newSession x = false) →
    down + 131071 * reports (trace seg) < 2 ^ 32 →
    (∀ pre x post l, seg = pre ++ x :: post → outcome (log ++ pre) x = .packet l → Unforged E n down ups sent l) →
    down ≤ (config E (log ++ seg)).down ∧ (config E (log ++ seg)).down ≤ down + 131071 * reports (trace seg) ∧
    (∀ t ∈ delivered seg, t ∈ sent.map (·.2.told)) ∧
    (sent.Pairwise (·.1 < ·.1) → (∀ d ∈ sent, 0 < d.1) →
      (delivered seg).Sublist ((sent.filter fun d => d.1 ≤ (config E (log ++ seg)).down).map (·.2.told)))) ?_ ?_ seg
  · intro s' h _ _ _
    rw [List.append_nil, ← hd]
    exact ⟨Nat.le_refl _, Nat.le_add_right .., by simp [delivered], fun _ _ => List.nil_sublist _⟩
  · intro seg x ih s' h hn hb hu
    rw [← List.append_assoc] at h ⊢
    rw [trace_reports] at hb ⊢
    obtain ⟨s1, hh, -⟩ := h.last
    obtain ⟨i1, i2, i3, i4⟩ := ih hh (fun y hy => hn y (by simp [hy])) (by omega)
      (fun pre y post l he => hu pre y (post ++ [x]) l (by rw [he]; simp))
    obtain ⟨k1, k2, k3⟩ := view_keep (E := E) log seg (fun y hy => hn y (by simp [hy]))
    obtain ⟨j1, j2, j3⟩ := heard_attacked (down := down) (ups := ups) (sent := sent) (n := n) h (hn x (by simp)) (h1.trans k1.symm)
      (h2.trans k2.symm) (h3.trans k3.symm) hs i1 (by omega) (fun l => hu seg x [] l rfl)
    have hdx : delivered (seg ++ [x]) = delivered seg ++ delivered [x] := by simp [delivered]
    refine ⟨by omega, by omega, ?_, ?_⟩
    · intro t ht
      rw [hdx] at ht
      rcases List.mem_append.1 ht with ht | ht
      · exact i3 t ht
      · rcases j3 with j3 | ⟨c, D, m1, m2, -⟩
        · rw [j3] at ht; cases ht
        · rw [m2, List.mem_singleton] at ht
          subst ht
          exact List.mem_map.2 ⟨_, m1, rfl⟩
    · intro hp h0
      rw [hdx]
      rcases j3 with j3 | ⟨c, D, m1, m2, m3, m4⟩
      · rw [j3, List.append_nil]
        refine (i4 hp h0).trans (List.Sublist.map _ ?_)
        refine filter_wider fun d hd => ?_
        simp only [decide_eq_true_eq] at hd ⊢
        omega
      · have hc := h0 _ m1
        simp only at hc
        have hlt : (config E (log ++ seg)).down < (c, D).1 := by show _ < c; omega
        rw [m2, m3]
        have := (filter_upto (f := Prod.fst) hp m1 hlt).map (·.2.told)
        rw [List.map_append] at this
        exact ((i4 hp h0).append_right _).trans this

end Uwan
