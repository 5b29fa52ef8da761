import Verif.Lemmas.Secrecy
import Verif.Tests.Demo

/-!
# Keys reach the outside only through the cipher (C121)
-/

namespace Uwan
open Spec

variable {E E' : Env} {R : Block → Block → Prop} {log log' : List Item} {s s' : St} {ops : List Op}

/-- C121: let paired keys compute the same. A device that gets the same calls, packets and events with the paired keys can be told
apart by nothing: it has a history with the same results, the same frames, radio and timer calls and application callbacks, and the
same calls of the cipher but for the keys themselves. -/
theorem C121_secret (P : Paired E E' R) (h : Hist E log s) (ho : SameButKeys R (log.map (·.op)) ops) :
    ∃ log' s', Hist E' log' s' ∧ log'.map (·.op) = ops ∧ log'.map outside = log.map outside := by
  obtain ⟨log', a, n, p, k1, -, k2, k3⟩ := rek_hist P h ho
  exact ⟨log', _, k1, k2, k3⟩

/-- What happens is determined by the calls, packets and events. -/
theorem hist_det {log1 log2 : List Item} {s1 s2 : St} (h1 : Hist E log1 s1) (h2 : Hist E log2 s2)
    (ho : log1.map (·.op) = log2.map (·.op)) : log1 = log2 ∧ s1 = s2 := by
  induction h1 generalizing log2 s2 with
  | nil =>
    cases h2 with
    | nil => exact ⟨rfl, rfl⟩
    | snoc => simp at ho
  | snoc g hv hs ih =>
    cases h2 with
    | nil => simp at ho
    | snoc g2 hv2 hs2 =>
      simp only [List.map_append, List.map_cons, List.map_nil] at ho
      obtain ⟨k1, k2⟩ := List.append_inj' ho rfl
      obtain ⟨rfl, rfl⟩ := ih g2 k1
      cases k2
      rw [hs] at hs2
      cases hs2
      exact ⟨rfl, rfl⟩

/-- C121 for any two such devices: nothing that happened outside differs, in particular no byte on the air. -/
theorem C121_alike (P : Paired E E' R) (h : Hist E log s) (h' : Hist E' log' s')
    (ho : SameButKeys R (log.map (·.op)) (log'.map (·.op))) :
    log'.map outside = log.map outside ∧ txs (trace log') = txs (trace log) := by
  obtain ⟨l, s1, k1, k2, k3⟩ := C121_secret P h ho
  obtain ⟨rfl, -⟩ := hist_det k1 h' k2
  refine ⟨k3, ?_⟩
  have e : ∀ x : List Item, txs (trace x) = txs ((x.map outside).flatMap (·.2)) := by
    intro x
    unfold trace txs
    induction x with
    | nil => rfl
    | cons it x ih =>
      simp only [List.flatMap_cons, List.filterMap_append, List.map_cons, ih]
      congr 1
      unfold outside
      rw [List.filterMap_map]
      congr 1
      funext ev
      cases ev <;> rfl
  rw [e, e, k3]

/-- A cipher that ignores the top bit of every byte of the key. -/
def lowKey (k : Block) : Block := k.map (· &&& 0x7f)
/-- see `lowKey` -/
def lowEnv : Env := ⟨fun k => Tests.xorEnv.aes (lowKey k), fun k => Tests.xorEnv.cmac (lowKey k)⟩
/-- Another key for it that computes the same. -/
def highKey : Block := Tests.appKey.map (· ||| 0x80)

theorem lowPaired : Paired lowEnv lowEnv (fun k k' => lowKey k = lowKey k') where
  aes := fun h b => by unfold lowEnv; simp only [h]
  cmac := fun h m => by unfold lowEnv; simp only [h]
  derived := fun h b => by unfold lowEnv; simp only [h]
  zero := rfl

/-- Join with a given key, then an uplink. -/
def keyedOps (k : Block) : List Op :=
  [.init .eu868, .setOtaaKeys Tests.devEui Tests.appEui k, .join Tests.rnd Tests.rnd, .event 4 (Tests.rxOf []), .timer .rx1,
    .event 2 (Tests.rxOf Tests.joinAccept), .send 2 [1, 2, 3] false 0]

theorem keyed_same : SameButKeys (fun k k' => lowKey k = lowKey k') (keyedOps Tests.appKey) (keyedOps highKey) := by
  have h0 := SameButKeys.same (R := fun k k' => lowKey k = lowKey k') (.init .eu868) .nil nofun nofun
  have h1 := SameButKeys.otaa (d := Tests.devEui) (a := Tests.appEui) h0 (show lowKey Tests.appKey = lowKey highKey by decide +kernel)
  have h2 := SameButKeys.same (.join Tests.rnd Tests.rnd) h1 nofun nofun
  have h3 := SameButKeys.same (.event 4 (Tests.rxOf [])) h2 nofun nofun
  have h4 := SameButKeys.same (.timer .rx1) h3 nofun nofun
  have h5 := SameButKeys.same (.event 2 (Tests.rxOf Tests.joinAccept)) h4 nofun nofun
  exact SameButKeys.same (.send 2 [1, 2, 3] false 0) h5 nofun nofun

theorem logOf_op : ∀ (ops : List Op) (s s' : St) (l : List Item), logOf E s ops = some (l, s') → l.map (·.op) = ops
  | [], _, _, _, h => by simp only [logOf, Option.some.injEq, Prod.mk.injEq] at h; rw [← h.1]; rfl
  | op :: ops, s, s', l, h => by
    simp only [logOf] at h
    split at h
    · next r s1 ev hs =>
      split at h
      · next l' s2 hl =>
        simp only [Option.some.injEq, Prod.mk.injEq] at h
        rw [← h.1, List.map_cons, logOf_op ops _ _ _ hl]
      · simp at h
    · simp at h

-- Two different keys that compute the same: the device joins and sends, so that two frames are on the air.
example : ∃ log s ops, Paired lowEnv lowEnv (fun k k' => lowKey k = lowKey k') ∧ Hist lowEnv log s ∧
    SameButKeys (fun k k' => lowKey k = lowKey k') (log.map (·.op)) ops ∧ ops ≠ log.map (·.op) ∧ (txs (trace log)).length = 2 ∧
    (trace log).any (· matches .downlink .no ..) := by
  have hf : ((logOf lowEnv .boot (keyedOps Tests.appKey)).map fun x =>
      ((txs (trace x.1)).length, (trace x.1).any (· matches .downlink .no ..))) = some (2, true) := by decide +kernel
  have hv : ∀ o ∈ keyedOps Tests.appKey, o.Valid := by
    intro o ho
    exact of_decide_eq_true (List.all_eq_true.mp (show (keyedOps Tests.appKey).all (fun o => decide o.Valid) = true by decide +kernel) o ho)
  cases hx : logOf lowEnv .boot (keyedOps Tests.appKey) with
  | none => rw [hx] at hf; cases hf
  | some x =>
    rw [hx] at hf
    simp only [Option.map_some, Option.some.injEq, Prod.mk.injEq] at hf
    have ho := logOf_op _ _ _ _ hx
    refine ⟨x.1, x.2, keyedOps highKey, lowPaired, logOf_seg _ _ _ _ hv hx, by rw [ho]; exact keyed_same, ?_, hf.1, hf.2⟩
    rw [ho]
    intro h
    have := congrArg (fun l : List Op => l[1]?) h
    simp only [keyedOps, List.getElem?_cons_succ, List.getElem?_cons_zero, Option.some.injEq, Op.setOtaaKeys.injEq, true_and] at this
    exact absurd this (by decide +kernel)

end Uwan
