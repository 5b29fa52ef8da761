import Verif.Spec.Network
import Verif.Tests.Demo

/-! Concrete air and sky for the examples beside the theorems about the network server. -/

namespace Uwan.Demo
open Spec

/-- The frames heard and the messages in them when the k-th uplink is heard iff the k-th flag is set. -/
def heardOf (E : Env) : List Item → List Item → List Bool → List Bytes × List Message
  | _, [], _ => ([], [])
  | log, it :: seg, bs =>
    match uplinkOf E log it with
    | none => heardOf E (log ++ [it]) seg bs
    | some m =>
      match bs.headD false, txs it.ev with
      | true, [l] =>
        let r := heardOf E (log ++ [it]) seg bs.tail
        (l :: r.1, m :: r.2)
      | _, _ => heardOf E (log ++ [it]) seg bs.tail

theorem heardOf_air (E : Env) (addr : Nat) : ∀ (seg log : List Item) (bs : List Bool) (gap : Nat), gap + seg.length < 65536 →
    Air E addr log gap seg (heardOf E log seg bs).1 (heardOf E log seg bs).2
  | [], log, _, gap, _ => .done log gap
  | it :: seg, log, bs, gap, hg => by
    rw [List.length_cons] at hg
    unfold heardOf
    cases hu : uplinkOf E log it with
    | none => exact .other hu (heardOf_air E addr seg _ bs gap (by omega))
    | some m =>
      simp only
      split
      · next l _ ht => exact .heard hu (by rw [ht]; simp) (heardOf_air E addr seg _ _ 0 (by omega))
      · exact .lost hu (by omega) (heardOf_air E addr seg _ _ (gap + 1) (by omega))

instance (a b : Nat) : Decidable (inStep a b) := by unfold inStep; infer_instance

/-- Checks that the packets received in a history are the given downlinks with their counters, up to packets for others. -/
def skyOk (E : Env) (n : Server) : List Item → Nat → List Item → List (Downlink × Nat) → Bool
  | _, _, [], ds => ds.isEmpty
  | log, down, it :: seg, ds =>
    match outcome log it with
    | .packet l =>
      if l.length < 12 ∨ isDataDown l = false ∨ leNat ((l.drop 1).take 4) ≠ n.addr then skyOk E n (log ++ [it]) down seg ds
      else
        match ds with
        | [] => false
        | d :: ds =>
          decide (l = d.1.build E n.nwk n.app n.addr d.2 ∧ d.1.fOpts.length ≤ 15 ∧ inStep down d.2) &&
            skyOk E n (log ++ [it]) d.2 seg ds
    | _ => skyOk E n (log ++ [it]) down seg ds

theorem skyOk_sky (E : Env) (n : Server) : ∀ (seg log : List Item) (down : Nat) (ds : List (Downlink × Nat)),
    skyOk E n log down seg ds = true → Sky E n log down seg (ds.map (·.1))
  | [], log, down, ds, h => by
    cases ds with
    | nil => exact .done log down
    | cons => simp [skyOk] at h
  | it :: seg, log, down, ds, h => by
    unfold skyOk at h
    split at h
    · next l ho =>
      split at h
      · next hf => exact .foreign ho hf (skyOk_sky E n seg _ _ _ h)
      · split at h
        · cases h
        · next d ds =>
          obtain ⟨h1, h2⟩ := Bool.and_eq_true_iff.mp h
          obtain ⟨g1, g2, g3⟩ := of_decide_eq_true h1
          exact .genuine (g1 ▸ ho) g2 g3 (skyOk_sky E n seg _ _ _ h2)
    · next hne => exact .nothing hne (skyOk_sky E n seg _ _ _ h)

end Uwan.Demo
