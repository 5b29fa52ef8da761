import Verif.Lemmas.Attacker
import Verif.Props.Restart
import Verif.Props.Network

/-!
# An attacker on the air (C135, C136)

Everything that is heard may come from an attacker who hears all frames and repeats, delays, reorders, changes and invents them; the only
thing the attacker cannot do is make an integrity code of this session (`Spec.Unforged`).
-/

namespace Uwan
open Spec

variable {E : Env} {log : List Item} {s' : St}

/-- C135: whatever frames `rx` reach the server, in whatever order and number, the messages it accepts as uplinks of the device are messages
the application passed to `uwan_send_frame` in this session, unchanged, each at most once and in the order of the calls. `it0` starts the
session; the application uses no port 0 (C26); the counter does not pass 2^32. -/
theorem C135_uplinks {it0 : Item} {seg : List Item} (h : Hist E (log ++ [it0] ++ seg) s') (h0 : newSession it0 = true)
    (hseg : ∀ x ∈ seg, newSession x = false) (hport : ∀ x ∈ seg, ∀ pld c r, x.op ≠ .send 0 pld c r)
    (hcnt : firstCount it0 + sentCount seg ≤ 2 ^ 32) (down : Nat) (sent : List (Nat × Downlink)) (rx : List Bytes)
    (hrx : let v := view E (log ++ [it0])
      ∀ l ∈ rx, Unforged E ⟨v.nwk, v.app, v.addr, firstCount it0⟩ down (uplinks E (log ++ [it0]) (firstCount it0) seg) sent l) :
    let v := view E (log ++ [it0]);
    (Server.serve E ⟨v.nwk, v.app, v.addr, firstCount it0⟩ rx).Sublist ((uplinks E (log ++ [it0]) (firstCount it0) seg).map (·.msg)) := by
  intro v
  obtain ⟨s0, hp0, -⟩ := Hist.prefix (a := log ++ [it0]) h
  have hup := view_first hp0 h0
  have hlt := up_lt hp0
  have := serve_attacked (n0 := ⟨v.nwk, v.app, v.addr, firstCount it0⟩) h hseg hport rfl rfl rfl
    (by simp only; rw [hup, Nat.mod_eq_of_lt (by rw [← hup]; exact hlt)]) hcnt rx ⟨v.nwk, v.app, v.addr, firstCount it0⟩ rfl rfl rfl
    (Nat.le_refl _) hrx
  exact this.trans (List.filter_sublist.map _)

/-! ### Concrete cases

With the cipher of `cntEnv` an integrity code shows the counter, so every four bytes are right for one counter, and a frame is not forged
when the ends have used this counter for it. -/

/-- The operations are valid and run without undefined behaviour. -/
def cntFine (ops : List Op) : Bool := (logOf cntEnv .boot ops).isSome && ops.all fun o => decide o.Valid

/-- Cut such a run at its operation number `n`. -/
theorem cnt_cut {ops : List Op} (h : cntFine ops = true) (n : Nat) (hn : n < ops.length) :
    ∃ it, it.op = ops[n] ∧ cntItems ops = (cntItems ops).take n ++ [it] ++ (cntItems ops).drop (n + 1) ∧
      (cntItems ops).take n ++ [it] = (cntItems ops).take (n + 1) := by
  have hm := cntItems_op (Bool.and_eq_true_iff.mp h).1
  have hl : n < (cntItems ops).length := by
    have := congrArg List.length hm
    rw [List.length_map] at this
    omega
  refine ⟨(cntItems ops)[n], ?_, by simp, by rw [List.take_add_one, List.getElem?_eq_getElem hl]; rfl⟩
  have := congrArg (fun l => l[n]?) hm
  simp only [List.getElem?_map, List.getElem?_eq_getElem hl, List.getElem?_eq_getElem hn, Option.map_some, Option.some.injEq] at this
  exact this

/-- Decides `Unforged` for `cntEnv`. -/
def unforgedOk (n : Server) (down : Nat) (ups : List Uplink) (sent : List (Nat × Downlink)) (l : Bytes) : Bool :=
  let c := leNat (l.drop (l.length - 4))
  decide (4 ≤ l.length) && (decide (c < n.next) || ups.any fun u => u.cnt == c && u.frames.contains l) &&
    (decide (0 < c ∧ c ≤ down) || sent.any fun d => d.1 == c && d.2.build cntEnv n.nwk n.app n.addr c == l)

theorem unforgedOk_sound {n : Server} {down : Nat} {ups : List Uplink} {sent : List (Nat × Downlink)} {l : Bytes}
    (h : unforgedOk n down ups sent l = true) : Unforged cntEnv n down ups sent l := by
  unfold unforgedOk at h
  simp only [Bool.and_eq_true, decide_eq_true_eq, Bool.or_eq_true, List.any_eq_true, beq_iff_eq, List.contains_iff_mem] at h
  obtain ⟨⟨h1, h2⟩, h3⟩ := h
  intro dir cnt hd hc he
  rw [dataMic_cnt] at he
  have e := congrArg leNat he
  rw [leNat_leBytes, Nat.mod_eq_of_lt (by simpa using hc)] at e
  rw [e] at h2 h3
  rcases Nat.le_one_iff_eq_zero_or_eq_one.1 hd with rfl | rfl
  · rcases h2 with h2 | ⟨u, hu, rfl, hl⟩
    · exact .oldUp _ _ h2 hc
    · exact .up u l hu hl
  · rcases h3 with h3 | ⟨d, hd, rfl, rfl⟩
    · exact .oldDown _ _ h3.1 h3.2 hc
    · exact .down _ _ hd

/-- Three uplinks in a session that starts at counter 5. -/
def stormOps : List Op := [.init .eu868, .setSession 0x01020304 5 0 Tests.appKey Tests.appKey] ++ mute (.send 2 [1, 2] false 0) ++
  mute (.send 3 [3] true 0) ++ mute (.send 9 [4] false 0)

theorem stormFine : cntFine stormOps = true := by decide +kernel

/-- The first uplink arrives twice, a made-up frame with an old integrity code follows, then the third uplink, then the second one. -/
def stormRx : List Bytes :=
  let fs := (cntItems stormOps).flatMap fun x => txs x.ev
  [fs.getD 0 [], fs.getD 0 [], [0x40, 4, 3, 2, 1, 0, 6, 0, 9, 0xff, 3, 0, 0, 0], fs.getD 2 [], fs.getD 1 []]

example : ∃ (log : List Item) (it0 : Item) (seg : List Item) (s' : St) (down : Nat) (sent : List (Nat × Downlink)) (rx : List Bytes),
    Hist cntEnv (log ++ [it0] ++ seg) s' ∧ newSession it0 = true ∧ (∀ x ∈ seg, newSession x = false) ∧
    (∀ x ∈ seg, ∀ pld c r, x.op ≠ .send 0 pld c r) ∧ firstCount it0 + sentCount seg ≤ 2 ^ 32 ∧
    (let v := view cntEnv (log ++ [it0]);
      (∀ l ∈ rx, Unforged cntEnv ⟨v.nwk, v.app, v.addr, firstCount it0⟩ down (uplinks cntEnv (log ++ [it0]) (firstCount it0) seg) sent l) ∧
      Server.serve cntEnv ⟨v.nwk, v.app, v.addr, firstCount it0⟩ rx = [⟨false, [], some 2, [1, 2]⟩, ⟨false, [], some 9, [4]⟩]) ∧
    rx.length = 5 := by
  obtain ⟨i0, o0, e0, hl⟩ := cnt_cut stormFine 1 (by decide)
  have h := cnt_hist stormFine
  rw [e0] at h
  have hc : firstCount i0 = 5 := by unfold firstCount; rw [o0]; rfl
  refine ⟨_, i0, _, _, 10, [], stormRx, h, by unfold newSession; rw [o0]; rfl, by decide +kernel, ?_, by rw [hc]; decide +kernel, ?_, rfl⟩
  · intro x hx pld c r hop
    have : ∀ x ∈ (cntItems stormOps).drop 2, (match x.op with | .send 0 _ _ _ => true | _ => false) = false := by decide +kernel
    have := this x hx
    rw [hop] at this
    simp at this
  · rw [hl, hc]
    refine ⟨fun l hm => unforgedOk_sound ?_, by decide +kernel⟩
    revert l
    decide +kernel

/-- C136, what holds: whatever packets reach the device in a session, every data downlink delivered with UWAN_ERR_NO is one that the
network has sent to it in this session, with its message type, port and payload. The network has used the counters up to
`(config E log).down` before; the counter does not come near 2^32 (each frame can move it by at most 131071). -/
theorem C136_genuine_partial {seg : List Item} (h : Hist E (log ++ seg) s') (hseg : ∀ x ∈ seg, newSession x = false) (next : Nat)
    (ups : List Uplink) (sent : List (Nat × Downlink)) (hs : ∀ d ∈ sent, d.1 < 2 ^ 32 ∧ d.2.fOpts.length ≤ 15)
    (hb : (config E log).down + 131071 * reports (trace seg) < 2 ^ 32)
    (hrx : let v := view E log
      ∀ pre x post l, seg = pre ++ x :: post → outcome (log ++ pre) x = .packet l →
        Unforged E ⟨v.nwk, v.app, v.addr, next⟩ (config E log).down ups sent l) :
    ∀ t ∈ delivered seg, t ∈ sent.map (·.2.told) :=
  (seg_attacked rfl rfl rfl hs rfl h hseg hb hrx).2.2.1

/-- C136, what holds: and each at most once and in the order of sending, when the network uses no counter 0. Missing: counter 0
(`C136_zero`). -/
theorem C136_order_partial {seg : List Item} (h : Hist E (log ++ seg) s') (hseg : ∀ x ∈ seg, newSession x = false) (next : Nat)
    (ups : List Uplink) (sent : List (Nat × Downlink)) (hs : ∀ d ∈ sent, d.1 < 2 ^ 32 ∧ d.2.fOpts.length ≤ 15)
    (hinc : sent.Pairwise (·.1 < ·.1)) (h0 : ∀ d ∈ sent, 0 < d.1) (hb : (config E log).down + 131071 * reports (trace seg) < 2 ^ 32)
    (hrx : let v := view E log
      ∀ pre x post l, seg = pre ++ x :: post → outcome (log ++ pre) x = .packet l →
        Unforged E ⟨v.nwk, v.app, v.addr, next⟩ (config E log).down ups sent l) :
    (delivered seg).Sublist (sent.map (·.2.told)) :=
  ((seg_attacked rfl rfl rfl hs rfl h hseg hb hrx).2.2.2 hinc h0).trans (List.filter_sublist.map _)

/-- Decides that nothing forged is heard. -/
def heardOk (n : Server) (down : Nat) (ups : List Uplink) (sent : List (Nat × Downlink)) : List Item → List Item → Bool
  | _, [] => true
  | log, x :: seg =>
    (match outcome log x with | .packet l => unforgedOk n down ups sent l | _ => true) && heardOk n down ups sent (log ++ [x]) seg

theorem heardOk_sound {n : Server} {down : Nat} {ups : List Uplink} {sent : List (Nat × Downlink)} {seg : List Item} :
    ∀ {log : List Item}, heardOk n down ups sent log seg = true →
      ∀ pre x post l, seg = pre ++ x :: post → outcome (log ++ pre) x = .packet l → Unforged cntEnv n down ups sent l := by
  induction seg with
  | nil => intro log _ pre x post l he; simp at he
  | cons y seg ih =>
    intro log h pre x post l he ho
    unfold heardOk at h
    obtain ⟨h1, h2⟩ := Bool.and_eq_true_iff.mp h
    cases pre with
    | nil =>
      simp only [List.nil_append, List.cons.injEq] at he
      obtain ⟨rfl, -⟩ := he
      rw [List.append_nil] at ho
      rw [ho] at h1
      exact unforgedOk_sound h1
    | cons z pre =>
      simp only [List.cons_append, List.cons.injEq] at he
      obtain ⟨rfl, he⟩ := he
      exact ih h2 pre x post l he (by simpa using ho)

/-- What the network sends. -/
def stormSent : List (Nat × Downlink) := [(101, helloDown), (103, ⟨true, 0, 0, [6], none⟩)]

/-- The first downlink comes twice, then a made-up frame with an old integrity code, then the second downlink. -/
def stormDown : List Op :=
  answered (.send 2 [1] false 0) (cntFrame 101) ++ answered (.send 2 [1] false 0) (cntFrame 101) ++
    answered (.send 2 [2] false 0) [0x60, 4, 3, 2, 1, 0, 102, 0, 50, 0, 0, 0] ++
    answered (.send 2 [1] false 0) (Downlink.build ⟨true, 0, 0, [6], none⟩ cntEnv Tests.appKey Tests.appKey 0x01020304 103)

/-- The session starts with downlink counter 100. -/
def stormStart : List Op := [.init .eu868, .setSession 0x01020304 0 100 Tests.appKey Tests.appKey]

theorem stormDownFine : cntFine (stormStart ++ stormDown) = true := by decide +kernel

-- The hypotheses of `C136_genuine_partial` and `C136_order_partial`.
example : ∃ (log seg : List Item) (s' : St) (next : Nat) (ups : List Uplink) (sent : List (Nat × Downlink)),
    Hist cntEnv (log ++ seg) s' ∧ (∀ x ∈ seg, newSession x = false) ∧ (∀ d ∈ sent, d.1 < 2 ^ 32 ∧ d.2.fOpts.length ≤ 15) ∧
    sent.Pairwise (·.1 < ·.1) ∧ (∀ d ∈ sent, 0 < d.1) ∧ (config cntEnv log).down + 131071 * reports (trace seg) < 2 ^ 32 ∧
    (let v := view cntEnv log
      ∀ pre x post l, seg = pre ++ x :: post → outcome (log ++ pre) x = .packet l →
        Unforged cntEnv ⟨v.nwk, v.app, v.addr, next⟩ (config cntEnv log).down ups sent l) ∧
    delivered seg = [(3, 7, some [0x68, 0x69]), (5, 0, none)] ∧ reports (trace seg) = 4 := by
  have h := cnt_hist stormDownFine
  rw [← List.take_append_drop 2 (cntItems (stormStart ++ stormDown))] at h
  exact ⟨_, _, _, 1000, [], stormSent, h, by decide +kernel, by decide +kernel, by decide +kernel, by decide +kernel, by decide +kernel,
    heardOk_sound (by decide +kernel), by decide +kernel, by decide +kernel⟩

/-- The first downlink of a new session, with counter 0, comes twice. -/
def zeroDown : List Op :=
  [.init .eu868, .setSession 0x01020304 0 0 Tests.appKey Tests.appKey] ++
    answered (.send 2 [1] false 0) (cntFrame 0) ++ answered (.send 2 [1] false 0) (cntFrame 0)

theorem zeroDownFine : cntFine zeroDown = true := by decide +kernel

/-- The full claim C136 is false: the network sends one downlink, the first of the session; an attacker sends it again, and it is delivered
twice. -/
theorem C136_zero : ∃ (log seg : List Item) (s' : St) (next : Nat) (sent : List (Nat × Downlink)),
    Hist cntEnv (log ++ seg) s' ∧ (∀ x ∈ seg, newSession x = false) ∧ (∀ d ∈ sent, d.1 < 2 ^ 32 ∧ d.2.fOpts.length ≤ 15) ∧
    (config cntEnv log).down = 0 ∧
    (let v := view cntEnv log
      ∀ pre x post l, seg = pre ++ x :: post → outcome (log ++ pre) x = .packet l →
        Unforged cntEnv ⟨v.nwk, v.app, v.addr, next⟩ (config cntEnv log).down [] sent l) ∧
    sent = [(0, helloDown)] ∧ delivered seg = [helloDown.told, helloDown.told] := by
  have h := cnt_hist zeroDownFine
  rw [← List.take_append_drop 2 (cntItems zeroDown)] at h
  exact ⟨_, _, _, 1000, [(0, helloDown)], h, by decide +kernel, by decide +kernel, by decide +kernel,
    heardOk_sound (by decide +kernel), rfl, by decide +kernel⟩

end Uwan
