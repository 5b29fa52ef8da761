import Verif.Spec.ClockSync
import Verif.Lemmas.Bridge

/-! # The clock synchronisation parser, refined to lists -/

namespace Uwan
open Spec

/-- The parser over lists. -/
def csL (cb : CsCbs) (unix : U32) (tail : Bytes) (seen : List Nat) : Bytes → Cs → Bytes → Except UB (Cs × Bytes × List CsEv)
  | [], c, out => .ok (c, out, [])
  | cid :: rest, c, out =>
    if seen.contains cid.toNat then .ok (c, out, [])
    else if 31 ≤ cid.toNat then .error .arith
    else if cid.toNat = 0 then do
      let out ← csPush out [0, 1, 1]
      csL cb unix tail (0 :: seen) rest c out
    else if cid.toNat = 1 then
      match rest with
      | a :: b :: d :: e :: t :: rest =>
        let mark := if 128 ≤ e.toNat then [CsEv.ubShift] else []
        if t &&& 0xf = c.token then do
          let (c, out, ev) ← csL cb unix tail (1 :: seen) rest { c with token := (c.token + 1) &&& 0xf } out
          .ok (c, out, mark ++ [.correction (or32 a b d e)] ++ ev)
        else do
          let (c, out, ev) ← csL cb unix tail (1 :: seen) rest c out
          .ok (c, out, mark ++ ev)
      | rest => csL cb unix tail (1 :: seen) rest c out
    else if cid.toNat = 2 then
      match rest with
      | p :: rest => do
        let (st, ev) ← csPeriod cb p
        let out ← csPush out ([0x2, st] ++ gpsBytes unix)
        let (c, out, ev') ← csL cb unix tail (2 :: seen) rest c out
        .ok (c, out, ev ++ [.getTime] ++ ev')
      | [] => .ok (c, out, [])
    else if cid.toNat = 3 then
      match rest with
      | b :: rest => do
        let (c, out, ev) ← csL cb unix tail (3 :: seen) rest { c with nbRep := b &&& 0x7 } out
        .ok (c, out, (if b &&& 0x7 ≠ 0 then [.resync] else []) ++ ev)
      | [] =>
        match tail with
        | b :: _ => .ok ({ c with nbRep := b &&& 0x7 }, out, if b &&& 0x7 ≠ 0 then [.resync] else [])
        | [] => .error .oob
    else if cid.toNat < 8 then csL cb unix tail (cid.toNat :: seen) rest c out
    else csL cb unix tail seen rest c out

/-- `exec_cmd_mask` has the bits of the identifiers seen. -/
def Masks (mask : Byte) (seen : List Nat) : Prop := ∀ k, mask.getLsbD k = seen.contains k

theorem ofNat_pow (k : Nat) : BitVec.ofNat 8 (2 ^ k) = BitVec.twoPow 8 k := by
  apply BitVec.eq_of_toNat_eq
  rw [BitVec.toNat_twoPow, BitVec.toNat_ofNat]

theorem Masks.lt {mask : Byte} {seen : List Nat} (h : Masks mask seen) {k : Nat} (hk : seen.contains k = true) : k < 8 := by
  by_cases hlt : k < 8
  · exact hlt
  · rw [← h k, BitVec.getLsbD_of_ge _ _ (by omega)] at hk; cases hk

theorem mask_hit {mask : Byte} {seen : List Nat} (h : Masks mask seen) (k : Nat) :
    mask &&& BitVec.ofNat 8 (2 ^ k) ≠ 0 ↔ seen.contains k = true := by
  rw [← h k, ofNat_pow, BitVec.and_twoPow]
  cases hk : mask.getLsbD k with
  | false => simp
  | true =>
    have : k < 8 := by
      by_cases hlt : k < 8
      · exact hlt
      · rw [BitVec.getLsbD_of_ge _ _ (by omega)] at hk; cases hk
    simp only [if_true, iff_true]
    intro h0
    have h1 := congrArg (fun v => v.getLsbD k) h0
    simp [this] at h1

theorem mask_set {mask : Byte} {seen : List Nat} (h : Masks mask seen) (k : Nat) :
    Masks (mask ||| BitVec.ofNat 8 (2 ^ k)) (if k < 8 then k :: seen else seen) := by
  intro j
  rw [ofNat_pow, BitVec.getLsbD_or, BitVec.getLsbD_twoPow, h j]
  by_cases hk : k < 8
  · rw [if_pos hk, List.contains_cons]
    by_cases hj : k = j
    · subst hj; simp [hk]
    · have : ¬ j = k := fun e => hj e.symm
      simp [hj, this]
  · simp [hk]

theorem csCmd_junk {cb : CsCbs} {mem : Bytes} {size : Byte} {unix : U32} {cmd : Byte} {off : Nat} {c : Cs} {out : Bytes} (h : 4 ≤ cmd.toNat) :
    csCmd cb mem size unix cmd off c out = .ok (off, c, out, []) := by
  have h0 : cmd ≠ 0 := by rintro rfl; exact absurd h (by decide)
  have h1 : cmd ≠ 1 := by rintro rfl; exact absurd h (by decide)
  have h2 : cmd ≠ 2 := by rintro rfl; exact absurd h (by decide)
  have h3 : cmd ≠ 3 := by rintro rfl; exact absurd h (by decide)
  unfold csCmd
  rw [if_neg h0, if_neg h1, if_neg h2, if_neg h3]

/-- A second pass over the packet, after an offset that wrapped, ends without effect. -/
def Stop (data : Bytes) (seen : List Nat) (i : Nat) : Prop :=
  ∃ h : i < data.length, (∀ j, (hj : j < i) → 8 ≤ data[j].toNat ∧ data[j].toNat < 31) ∧ seen.contains data[i].toNat = true

theorem csLoop_stop {cb : CsCbs} {data tail : Bytes} {unix : U32} (hl : data.length ≤ 255) {seen : List Nat} {i : Nat} (hst : Stop data seen i) :
    ∀ (n off : Nat) (mask : Byte) (c : Cs) (out : Bytes), Masks mask seen → off ≤ i → i - off < n →
      csLoop cb (data ++ tail) (BitVec.ofNat 8 data.length) unix n off mask c out = .ok (c, out, []) := by
  obtain ⟨hi, hj, hs⟩ := hst
  intro n
  induction n with
  | zero => intro off mask c out _ _ h; omega
  | succ n ih =>
    intro off mask c out hm ho hn
    have hsz : (BitVec.ofNat 8 data.length).toNat = data.length := by rw [BitVec.toNat_ofNat]; exact Nat.mod_eq_of_lt (by omega)
    have hlt : off < data.length := by omega
    unfold csLoop
    rw [hsz, if_pos hlt, List.getElem?_append_left hlt, List.getElem?_eq_getElem hlt]
    show (if 31 ≤ data[off].toNat then _ else _) = _
    by_cases he : off = i
    · subst he
      have := hm.lt hs
      rw [if_neg (by omega)]
      exact if_pos ((mask_hit hm _).mpr hs)
    · have := hj off (by omega)
      rw [if_neg (by omega)]
      have h0 : BitVec.ofNat 8 (2 ^ data[off].toNat) = (0 : Byte) := by
        rw [ofNat_pow]
        apply BitVec.eq_of_toNat_eq
        rw [BitVec.toNat_twoPow]
        obtain ⟨k, hk⟩ : ∃ k, data[off].toNat = 8 + k := ⟨data[off].toNat - 8, by omega⟩
        rw [hk, Nat.pow_add, Nat.mul_mod_right]; rfl
      simp only []
      rw [h0, if_neg (by simp), csCmd_junk (by omega)]
      show ((csLoop cb (data ++ tail) _ unix n (off + 1) _ c out).bind _) = _
      rw [ih (off + 1) _ c out (by simpa using hm) (by omega) (by omega)]
      rfl

/-- What is known in the first pass about the bytes before the offset. -/
def Passed (data : Bytes) (seen : List Nat) (off : Nat) : Prop :=
  (seen = [] ∧ ∀ j, (hj : j < off) → (hd : j < data.length) → 8 ≤ data[j].toNat ∧ data[j].toNat < 31) ∨ ∃ i, Stop data seen i

theorem Passed.seen {data : Bytes} {seen : List Nat} {off k : Nat} (h : Passed data seen off) (hd : off < data.length)
    (hk : data[off].toNat = k) (off' : Nat) : Passed data (k :: seen) off' := by
  rcases h with ⟨rfl, h⟩ | ⟨i, hi, h1, h2⟩
  · exact .inr ⟨off, hd, fun j hj => h j hj (by omega), by simp [hk]⟩
  · exact .inr ⟨i, hi, h1, by rw [List.contains_cons, h2, Bool.or_true]⟩

theorem Passed.junk {data : Bytes} {seen : List Nat} {off : Nat} (h : Passed data seen off) (hd : off < data.length)
    (h1 : 8 ≤ data[off].toNat) (h2 : data[off].toNat < 31) : Passed data seen (off + 1) := by
  rcases h with ⟨rfl, h⟩ | h
  · refine .inl ⟨rfl, fun j hj hjd => ?_⟩
    by_cases e : j = off
    · subst e; exact ⟨h1, h2⟩
    · exact h j (by omega) hjd
  · exact .inr h

theorem drop_head {l tail : Bytes} {i : Nat} {a : Byte} {r : Bytes} (h : l.drop i = a :: r) :
    i < l.length ∧ (l ++ tail)[i]? = some a ∧ l.drop (i + 1) = r := by
  have hlt : i < l.length := by
    apply Nat.lt_of_not_le; intro hle
    rw [List.drop_of_length_le hle] at h; cases h
  rw [List.drop_eq_getElem_cons hlt] at h
  injection h with h1 h2
  exact ⟨hlt, by rw [List.getElem?_append_left hlt, List.getElem?_eq_getElem hlt, h1], h2⟩

theorem sync_room_ne {seen : List Nat} {k : Nat} (h : k ≠ 3) :
    (if (k :: seen).contains 3 then 0 else 256) = (if seen.contains 3 then 0 else 256) := by
  rw [List.contains_cons, show (3 == k) = false from by simp; omega, Bool.false_or]

theorem sync_room_eq {seen : List Nat} : (if (3 :: seen).contains 3 then 0 else 256) = 0 := by simp

theorem csLoop_eq {cb : CsCbs} {data tail : Bytes} {unix : U32} (hl : data.length ≤ 255) :
    ∀ (n off : Nat) (mask : Byte) (seen : List Nat) (c : Cs) (out : Bytes), off ≤ data.length → Masks mask seen → Passed data seen off →
      data.length - off + (if seen.contains 3 then 0 else 256) ≤ n →
      csLoop cb (data ++ tail) (BitVec.ofNat 8 data.length) unix n off mask c out = csL cb unix tail seen (data.drop off) c out := by
  have hsz : (BitVec.ofNat 8 data.length).toNat = data.length := by rw [BitVec.toNat_ofNat]; exact Nat.mod_eq_of_lt (by omega)
  have hend : ∀ n off mask c out, data.length ≤ off →
      csLoop cb (data ++ tail) (BitVec.ofNat 8 data.length) unix n off mask c out = .ok (c, out, []) := by
    intro n off mask c out h
    unfold csLoop
    cases n <;> simp only [hsz, if_neg (Nat.not_lt.mpr h)]
  intro n
  induction n with
  | zero =>
    intro off mask seen c out ho hm hp hn
    have : off = data.length := by omega
    subst this
    rw [List.drop_length, hend _ _ _ _ _ (Nat.le_refl _)]; rfl
  | succ n ih =>
    intro off mask seen c out ho hm hp hn
    by_cases hlt : off < data.length
    case neg => rw [hend _ _ _ _ _ (by omega), List.drop_of_length_le (by omega)]; rfl
    have hd : data.drop off = data[off] :: data.drop (off + 1) := List.drop_eq_getElem_cons hlt
    have hmem : ∀ i, (h : i < data.length) → (data ++ tail)[i]? = some data[i] := by
      intro i h; rw [List.getElem?_append_left h, List.getElem?_eq_getElem h]
    unfold csLoop
    rw [hsz, if_pos hlt, hmem off hlt, hd]
    unfold csL
    show (if 31 ≤ data[off].toNat then _ else _) = _
    by_cases h31 : 31 ≤ data[off].toNat
    · rw [if_pos h31, if_neg (fun h => by have := hm.lt h; omega), if_pos h31]
    rw [if_neg h31]
    simp only []
    by_cases hs : seen.contains data[off].toNat = true
    · rw [if_pos hs, if_pos ((mask_hit hm _).mpr hs)]
    rw [if_neg hs, if_neg h31, if_neg (fun h => hs ((mask_hit hm _).mp h))]
    have hm' := mask_set hm data[off].toNat
    by_cases h4 : 4 ≤ data[off].toNat
    · rw [if_neg (by omega), if_neg (by omega), if_neg (by omega), if_neg (by omega), csCmd_junk h4]
      show ((csLoop cb (data ++ tail) _ unix n (off + 1) _ c out).bind _) = _
      by_cases h8 : data[off].toNat < 8
      · rw [if_pos h8] at hm' ⊢
        rw [ih (off + 1) _ _ c out (by omega) hm' (hp.seen hlt rfl _) (by
          rw [sync_room_ne (by intro e; omega)]; omega)]
        cases csL cb unix tail (data[off].toNat :: seen) (data.drop (off + 1)) c out <;> rfl
      · rw [if_neg h8] at hm' ⊢
        rw [ih (off + 1) _ _ c out (by omega) hm' (hp.junk hlt (by omega) (by omega)) (by omega)]
        cases csL cb unix tail seen (data.drop (off + 1)) c out <;> rfl
    have key : data[off] = 0 ∨ data[off] = 1 ∨ data[off] = 2 ∨ data[off] = 3 := by
      have e : ∀ k : Nat, data[off].toNat = k → data[off] = BitVec.ofNat 8 k := fun k hk => by rw [← hk, BitVec.ofNat_toNat, BitVec.setWidth_eq]
      have h4' : data[off].toNat < 4 := by omega
      rcases (by omega : data[off].toNat = 0 ∨ data[off].toNat = 1 ∨ data[off].toNat = 2 ∨ data[off].toNat = 3) with h | h | h | h
      · exact .inl (e 0 h)
      · exact .inr (.inl (e 1 h))
      · exact .inr (.inr (.inl (e 2 h)))
      · exact .inr (.inr (.inr (e 3 h)))
    have hps := hp.seen hlt rfl
    generalize data[off] = cmd at *
    unfold csCmd
    rcases key with rfl | rfl | rfl | rfl
    · simp only [if_pos]
      change Masks _ (0 :: seen) at hm'
      show ((csPush out [0, 1, 1]).bind _).bind _ = _
      rw [if_pos (by decide)]
      cases csPush out [0, 1, 1] with
      | error u => rfl
      | ok o =>
        show ((csLoop cb (data ++ tail) _ unix n (off + 1) _ c o).bind _) = csL cb unix tail _ _ c o
        rw [ih (off + 1) _ _ c o (by omega) hm' (hps _) (by rw [sync_room_ne (by decide)]; omega)]
        cases csL cb unix tail (0 :: seen) (data.drop (off + 1)) c o <;> rfl
    · change Masks _ (1 :: seen) at hm'
      rw [if_neg (by decide), if_pos rfl, hsz, if_neg (show ¬ (1 : Byte).toNat = 0 by decide), if_pos (show (1 : Byte).toNat = 1 by decide)]
      by_cases h5 : data.length < off + 1 + 5
      · rw [if_pos h5]
        show ((csLoop cb (data ++ tail) _ unix n (off + 1) _ c out).bind _) = _
        rw [ih (off + 1) _ _ c out (by omega) hm' (hps _) (by rw [sync_room_ne (by decide)]; omega)]
        split
        · next a b d e t r hr =>
          have := congrArg List.length hr
          simp at this; omega
        · cases csL cb unix tail (1 :: seen) (data.drop (off + 1)) c out <;> rfl
      · rw [if_neg h5]
        obtain ⟨a, b, d, e, t, r, hr⟩ : ∃ a b d e t r, data.drop (off + 1) = a :: b :: d :: e :: t :: r :=
          ⟨_, _, _, _, _, _, by
            rw [List.drop_eq_getElem_cons (by omega), List.drop_eq_getElem_cons (by omega), List.drop_eq_getElem_cons (by omega),
              List.drop_eq_getElem_cons (by omega), List.drop_eq_getElem_cons (by omega)]⟩
        obtain ⟨-, m0, r0⟩ := drop_head (tail := tail) hr
        obtain ⟨-, m1, r1⟩ := drop_head (tail := tail) r0
        obtain ⟨-, m2, r2⟩ := drop_head (tail := tail) r1
        obtain ⟨-, m3, r3⟩ := drop_head (tail := tail) r2
        obtain ⟨-, m4, r4⟩ := drop_head (tail := tail) r3
        rw [hr, m0, m1, m2, m3, m4, ← r4]
        simp only []
        have hfuel : data.length - (off + 1 + 5) + (if (1 :: seen).contains 3 then 0 else 256) ≤ n := by rw [sync_room_ne (by decide)]; omega
        by_cases ht : t &&& 0xf = c.token
        · rw [if_pos ht]
          show ((if t &&& 0xf = c.token then _ else _ : Except UB _).bind _) = _
          rw [if_pos ht]
          show ((csLoop cb (data ++ tail) _ unix n (off + 1 + 5) _ _ out).bind _) = _
          rw [ih (off + 1 + 5) _ _ _ out (by omega) hm' (hps _) hfuel]
          cases csL cb unix tail (1 :: seen) (data.drop (off + 1 + 5)) { c with token := (c.token + 1) &&& 0xf } out <;> rfl
        · rw [if_neg ht]
          show ((if t &&& 0xf = c.token then _ else _ : Except UB _).bind _) = _
          rw [if_neg ht]
          show ((csLoop cb (data ++ tail) _ unix n (off + 1 + 5) _ _ out).bind _) = _
          rw [ih (off + 1 + 5) _ _ _ out (by omega) hm' (hps _) hfuel]
          cases csL cb unix tail (1 :: seen) (data.drop (off + 1 + 5)) c out <;> rfl
    · change Masks _ (2 :: seen) at hm'
      rw [if_neg (by decide), if_neg (by decide), if_pos rfl, hsz, if_neg (show ¬ (2 : Byte).toNat = 0 by decide),
        if_neg (show ¬ (2 : Byte).toNat = 1 by decide), if_pos (show (2 : Byte).toNat = 2 by decide)]
      cases hr : data.drop (off + 1) with
      | nil =>
        have hlen : data.length ≤ off + 1 := List.drop_eq_nil_iff.mp hr
        rw [if_pos (by omega)]
        show ((csLoop cb (data ++ tail) _ unix n (off + 1) _ c out).bind _) = _
        rw [hend _ _ _ _ _ hlen]; rfl
      | cons p r =>
        obtain ⟨h0, m0, r0⟩ := drop_head (tail := tail) hr
        rw [if_neg (by omega), m0, ← r0]
        show (((csPeriod cb p).bind _).bind _) = (csPeriod cb p).bind _
        cases csPeriod cb p with
        | error u => rfl
        | ok x =>
          obtain ⟨st, ev⟩ := x
          show (((csPush out ([2, st] ++ gpsBytes unix)).bind _).bind _) = (csPush out ([2, st] ++ gpsBytes unix)).bind _
          cases csPush out ([2, st] ++ gpsBytes unix) with
          | error u => rfl
          | ok o =>
            show ((csLoop cb (data ++ tail) _ unix n (off + 1 + 1) _ c o).bind _) = (csL cb unix tail _ _ c o).bind _
            rw [ih (off + 1 + 1) _ _ c o (by omega) hm' (hps _) (by rw [sync_room_ne (by decide)]; omega)]
    · change Masks _ (3 :: seen) at hm'
      rw [if_neg (by decide), if_neg (by decide), if_neg (by decide), if_pos rfl, if_neg (show ¬ (3 : Byte).toNat = 0 by decide),
        if_neg (show ¬ (3 : Byte).toNat = 1 by decide), if_neg (show ¬ (3 : Byte).toNat = 2 by decide), if_pos (show (3 : Byte).toNat = 3 by decide)]
      have h3 : seen.contains 3 = false := by simpa using hs
      rw [h3] at hn
      simp only [Bool.false_eq_true, if_false] at hn
      cases hr : data.drop (off + 1) with
      | nil =>
        have hlen : data.length ≤ off + 1 := List.drop_eq_nil_iff.mp hr
        rw [List.getElem?_append_right hlen, show off + 1 - data.length = 0 from by omega]
        cases tail with
        | nil => rfl
        | cons b tl =>
          show ((csLoop cb (data ++ b :: tl) _ unix n ((off + 1 + 1) % 256) _ { c with nbRep := b &&& 0x7 } out).bind _) = _
          by_cases hw : off + 1 + 1 = 256
          · rw [hw, Nat.mod_self]
            rcases hps 0 with ⟨h, -⟩ | ⟨i, hst⟩
            · cases h
            · have := hst.1
              rw [csLoop_stop hl hst n 0 _ _ out hm' (by omega) (by omega)]
              simp [Except.bind]
          · rw [Nat.mod_eq_of_lt (by omega), hend _ _ _ _ _ (by omega)]
            simp [Except.bind]
      | cons b r =>
        obtain ⟨h0, m0, r0⟩ := drop_head (tail := tail) hr
        rw [m0, ← r0]
        show ((csLoop cb (data ++ tail) _ unix n ((off + 1 + 1) % 256) _ { c with nbRep := b &&& 0x7 } out).bind _) = (csL cb unix tail _ _ _ out).bind _
        rw [Nat.mod_eq_of_lt (by omega), ih (off + 1 + 1) _ _ _ out (by omega) hm' (hps _) (by rw [sync_room_eq]; omega)]

/-! ### What the commands do -/

/-- The length of a period as the code computes it (src/ext/clock_sync.c:60-91). -/
def codeSec (p : Nat) : Nat := 128 * (if p = 0 then 1 else 2 ^ 2 ^ (p - 1))

theorem periodOf_small {p : Byte} (h : p.toNat ≤ 5) : periodOf p = .ok (BitVec.ofNat 32 (codeSec p.toNat)) := by
  have : p = 0 ∨ p = 1 ∨ p = 2 ∨ p = 3 ∨ p = 4 ∨ p = 5 := by
    have e : ∀ k : Nat, p.toNat = k → p = BitVec.ofNat 8 k := fun k hk => by rw [← hk, BitVec.ofNat_toNat, BitVec.setWidth_eq]
    rcases (by omega : p.toNat = 0 ∨ p.toNat = 1 ∨ p.toNat = 2 ∨ p.toNat = 3 ∨ p.toNat = 4 ∨ p.toNat = 5) with h | h | h | h | h | h
    · exact .inl (e _ h)
    · exact .inr (.inl (e _ h))
    · exact .inr (.inr (.inl (e _ h)))
    · exact .inr (.inr (.inr (.inl (e _ h))))
    · exact .inr (.inr (.inr (.inr (.inl (e _ h)))))
    · exact .inr (.inr (.inr (.inr (.inr (e _ h)))))
  rcases this with rfl | rfl | rfl | rfl | rfl | rfl <;> decide +kernel

theorem periodOf_big {p : Byte} (h : 6 ≤ p.toNat) : periodOf p = .error .arith := by
  have h0 : p ≠ 0 := by rintro rfl; exact absurd h (by decide)
  obtain ⟨k, hk⟩ : ∃ k, p.toNat - 1 = k + 5 := ⟨p.toNat - 6, by omega⟩
  unfold periodOf
  rw [if_neg h0, hk]
  rfl

theorem codeSec_lt {p : Nat} (h : p ≤ 5) : codeSec p < 4294967296 := by
  rcases (by omega : p = 0 ∨ p = 1 ∨ p = 2 ∨ p = 3 ∨ p = 4 ∨ p = 5) with rfl | rfl | rfl | rfl | rfl | rfl <;> decide

theorem gpsBytes_eq (unix : U32) : gpsBytes unix = leBytes 4 (gpsTime unix.toNat) := by
  have h : gpsTime unix.toNat = (unixToGps unix).toNat := by
    unfold gpsTime unixToGps
    rw [BitVec.toNat_add, BitVec.toNat_sub]
    have e1 : (315964800 : U32).toNat = 315964800 := by decide
    have e2 : (18 : U32).toNat = 18 := by decide
    rw [e1, e2]
    have := unix.isLt
    omega
  rw [h, leBytes4]
  rfl

theorem signed_or32 (a b d e : Byte) : (or32 a b d e).toInt = signed32 (leNat [a, b, d, e]) := by
  rw [← or32_toNat, BitVec.toInt_eq_toNat_cond]
  unfold signed32
  split <;> split <;> first | rfl | omega

theorem low4 (t : Byte) : (t &&& 0xf).toNat = t.toNat % 16 := by
  rw [BitVec.toNat_and]
  exact Nat.and_two_pow_sub_one_eq_mod t.toNat 4

theorem low3 (t : Byte) : (t &&& 0x7).toNat = t.toNat % 8 := by
  rw [BitVec.toNat_and]
  exact Nat.and_two_pow_sub_one_eq_mod t.toNat 3

theorem low3_zero (t : Byte) : t &&& 0x7 = 0 ↔ t.toNat % 8 = 0 := by
  rw [← low3]
  exact ⟨fun h => by rw [h]; rfl, fun h => BitVec.eq_of_toNat_eq h⟩

theorem csPush_ok {out l o : Bytes} (h : csPush out l = .ok o) : o = out ++ l := by
  unfold csPush at h
  split at h
  · injection h with h; exact h.symm
  · cases h

/-- What is recorded of a number of commands `l`. -/
structure CsRes (cb : CsCbs) (unix : U32) (tok : Nat) (l : List SyncCmd) (c : Cs) (out : Bytes) (c' : Cs) (out' : Bytes) (ev : List CsEv) : Prop where
  out : out' = out ++ answers cb.period unix.toNat l
  corr : corrections (ev.filterMap callOf) = corrections (calls cb.period codeSec tok l)
  calls : ∃ x, ev.filterMap callOf = calls cb.period codeSec tok l ++ x ∧ (x = [] ∨ x = [.resync] ∧ .cut ∈ l)
  token : c'.token.toNat = (c.token.toNat + (corrections (ev.filterMap callOf)).length) % 16
  cbs : c'.cbs = c.cbs

theorem CsRes.nil {cb : CsCbs} {unix : U32} {tok : Nat} {c : Cs} {out : Bytes} (h : c.token.toNat < 16) : CsRes cb unix tok [] c out c out [] :=
  ⟨by simp [answers], rfl, ⟨[], rfl, .inl rfl⟩, by simp [corrections]; omega, rfl⟩

theorem CsRes.cons {cb : CsCbs} {unix : U32} {tok : Nat} {x : SyncCmd} {l : List SyncCmd} {c c1 c' : Cs} {out o1 out' : Bytes} {e1 ev : List CsEv}
    (hc : x ≠ .cut) (hx : CsRes cb unix tok [x] c out c1 o1 e1) (hl : CsRes cb unix tok l c1 o1 c' out' ev) : CsRes cb unix tok (x :: l) c out c' out' (e1 ++ ev) := by
  have hcr : ∀ a b : List SyncCall, corrections (a ++ b) = corrections a ++ corrections b := fun a b => List.filterMap_append
  have hcons : Spec.calls cb.period codeSec tok (x :: l) = Spec.calls cb.period codeSec tok [x] ++ Spec.calls cb.period codeSec tok l := by
    simp [Spec.calls]
  constructor
  · rw [hl.out, hx.out, List.append_assoc]; simp [answers]
  · rw [List.filterMap_append, hcr, hx.corr, hl.corr, hcons, hcr]
  · obtain ⟨y, h1, h2⟩ := hx.calls
    have hy : y = [] := by
      rcases h2 with h2 | ⟨-, h2⟩
      · exact h2
      · exact (hc (List.mem_singleton.mp h2).symm).elim
    obtain ⟨z, h3, h4⟩ := hl.calls
    refine ⟨z, by rw [List.filterMap_append, h1, h3, hy, hcons, List.append_nil, List.append_assoc], ?_⟩
    exact h4.imp id fun ⟨a, b⟩ => ⟨a, List.mem_cons_of_mem _ b⟩
  · rw [hl.token, hx.token, List.filterMap_append, hcr, List.length_append]; omega
  · rw [hl.cbs, hx.cbs]

theorem CsRes.skip {cb : CsCbs} {unix : U32} {tok : Nat} {l : List SyncCmd} {c c' : Cs} {out out' : Bytes} {ev : List CsEv}
    (hl : CsRes cb unix tok l c out c' out' ev) : CsRes cb unix tok (.skip :: l) c out c' out' ev :=
  ⟨hl.out, hl.corr, let ⟨x, h1, h2⟩ := hl.calls; ⟨x, h1, h2.imp id fun ⟨a, b⟩ => ⟨a, List.mem_cons_of_mem _ b⟩⟩, hl.token, hl.cbs⟩

theorem csL_ok {cb : CsCbs} {unix : U32} {tail : Bytes} {tok : Nat} (seen : List Nat) (data : Bytes) : ∀ (c : Cs) (out : Bytes) (c' : Cs) (out' : Bytes) (ev : List CsEv),
    csL cb unix tail seen data c out = .ok (c', out', ev) → (seen.contains 1 = false → c.token.toNat = tok) → c.token.toNat < 16 →
    CsRes cb unix tok (readSync seen data) c out c' out' ev := by
  induction seen, data using readSync.induct with
  | case1 seen =>
    intro c out c' out' ev h _ hlt
    simp only [csL, Except.ok.injEq, Prod.mk.injEq] at h
    obtain ⟨rfl, rfl, rfl⟩ := h
    exact .nil hlt
  | case2 seen cid rest hs =>
    intro c out c' out' ev h _ hlt
    unfold readSync
    rw [if_pos hs]
    unfold csL at h
    rw [if_pos hs] at h
    simp only [Except.ok.injEq, Prod.mk.injEq] at h
    obtain ⟨rfl, rfl, rfl⟩ := h
    exact .nil hlt
  | case3 seen cid rest hs h0 ih =>
    intro c out c' out' ev h ht hlt
    unfold readSync
    rw [if_neg hs, if_pos h0]
    unfold csL at h
    rw [if_neg hs, if_neg (by omega), if_pos h0] at h
    cases hp : csPush out [0, 1, 1] with
    | error u => rw [hp] at h; cases h
    | ok o =>
      rw [hp] at h
      rw [csPush_ok hp] at h
      have := ih _ _ _ _ _ h (by simpa using ht) hlt
      refine CsRes.cons (e1 := []) (by simp) ⟨rfl, rfl, ⟨[], rfl, .inl rfl⟩, ?_, rfl⟩ this
      simp [corrections]; omega
  | case4 seen cid hs h0 h1 a b d e t rest ih =>
    intro c out c' out' ev h ht hlt
    unfold readSync
    rw [if_neg hs, if_neg h0, if_pos h1]
    unfold csL at h
    rw [if_neg hs, if_neg (by omega), if_neg h0, if_pos h1] at h
    rw [h1] at hs
    have htok := ht (by simpa using hs)
    simp only [] at h
    have hmark : ∀ l : List CsEv, List.filterMap callOf ((if 128 ≤ e.toNat then [CsEv.ubShift] else []) ++ l) = List.filterMap callOf l := by
      intro l; split <;> rfl
    have hmatch : t &&& 0xf = c.token ↔ t.toNat % 16 = tok := by
      rw [← low4, ← htok]
      exact ⟨fun h => by rw [h], fun h => BitVec.eq_of_toNat_eq h⟩
    split at h
    · next heq =>
      cases hr : csL cb unix tail (1 :: seen) rest { c with token := (c.token + 1) &&& 0xf } out with
      | error u => rw [hr] at h; cases h
      | ok x =>
        rw [hr] at h
        obtain ⟨c1, o1, e1⟩ := x
        injection h with h
        simp only [Prod.mk.injEq] at h
        obtain ⟨rfl, rfl, rfl⟩ := h
        have htk : ((c.token + 1) &&& 0xf : Byte).toNat = (c.token.toNat + 1) % 16 := by
          rw [low4, BitVec.toNat_add]
          show (c.token.toNat + 1) % 256 % 16 = _
          omega
        have hlt' : ((c.token + 1) &&& 0xf : Byte).toNat < 16 := htk ▸ Nat.mod_lt _ (Nat.succ_pos 15)
        have hR := ih _ _ _ _ _ hr (by simp) hlt'
        have hcalls : List.filterMap callOf ((if 128 ≤ e.toNat then [CsEv.ubShift] else []) ++ [.correction (or32 a b d e)]) =
            Spec.calls cb.period codeSec tok [.timeAns (signed32 (leNat [a, b, d, e])) (t.toNat % 16)] := by
          rw [hmark, ← signed_or32]
          generalize or32 a b d e = v
          simp only [Spec.calls, List.flatMap_cons, List.flatMap_nil, List.append_nil, SyncCmd.calls, if_pos (hmatch.mp heq)]
          rfl
        refine CsRes.cons (c1 := { c with token := (c.token + 1) &&& 0xf }) (by simp) ⟨?_, ?_, ⟨[], by rw [hcalls, List.append_nil], .inl rfl⟩, ?_, rfl⟩ hR
        · simp [answers, SyncCmd.answer]
        · rw [hcalls]
        · rw [hcalls]
          simp only [Spec.calls, List.flatMap_cons, List.flatMap_nil, List.append_nil, SyncCmd.calls, if_pos (hmatch.mp heq)]
          exact htk
    · next hne =>
      cases hr : csL cb unix tail (1 :: seen) rest c out with
      | error u => rw [hr] at h; cases h
      | ok x =>
        rw [hr] at h
        obtain ⟨c1, o1, e1⟩ := x
        injection h with h
        simp only [Prod.mk.injEq] at h
        obtain ⟨rfl, rfl, rfl⟩ := h
        have hR := ih _ _ _ _ _ hr (by simp) hlt
        have hcalls : List.filterMap callOf (if 128 ≤ e.toNat then [CsEv.ubShift] else []) =
            Spec.calls cb.period codeSec tok [.timeAns (signed32 (leNat [a, b, d, e])) (t.toNat % 16)] := by
          have := hmark []
          rw [List.append_nil] at this
          rw [this, Spec.calls]
          simp only [List.flatMap_cons, List.flatMap_nil, List.append_nil, SyncCmd.calls, if_neg (fun h => hne (hmatch.mpr h)), List.filterMap_nil]
        refine CsRes.cons (by simp) ⟨?_, ?_, ⟨[], by rw [hcalls, List.append_nil], .inl rfl⟩, ?_, rfl⟩ hR
        · simp [answers, SyncCmd.answer]
        · rw [hcalls]
        · rw [hcalls]
          simp only [Spec.calls, List.flatMap_cons, List.flatMap_nil, List.append_nil, SyncCmd.calls, if_neg (fun h => hne (hmatch.mpr h))]
          show c.token.toNat = (c.token.toNat + 0) % 16
          omega
  | case5 seen cid hs h0 h1 rest hx ih =>
    intro c out c' out' ev h ht hlt
    have h' : csL cb unix tail (1 :: seen) rest c out = .ok (c', out', ev) := by
      unfold csL at h
      rw [if_neg hs, if_neg (by omega), if_neg h0, if_pos h1] at h
      split at h
      · exact (hx _ _ _ _ _ _ rfl).elim
      · exact h
    unfold readSync
    rw [if_neg hs, if_neg h0, if_pos h1]
    have hR := ih _ _ _ _ _ h' (by simp) hlt
    split
    · exact (hx _ _ _ _ _ _ rfl).elim
    · exact hR.skip
  | case6 seen cid hs h0 h1 h2 p rest ih =>
    intro c out c' out' ev h ht hlt
    unfold readSync
    rw [if_neg hs, if_neg h0, if_neg h1, if_pos h2]
    unfold csL at h
    rw [if_neg hs, if_neg (by omega), if_neg h0, if_neg h1, if_pos h2] at h
    simp only [] at h
    obtain ⟨st, e1, hp⟩ : ∃ st e1, csPeriod cb p = .ok (st, e1) := by
      cases hp : csPeriod cb p with
      | error u => rw [hp] at h; cases h
      | ok x => exact ⟨_, _, rfl⟩
    rw [hp] at h
    replace h : (csPush out ([2, st] ++ gpsBytes unix)).bind _ = _ := h
    cases hq : csPush out ([2, st] ++ gpsBytes unix) with
    | error u => rw [hq] at h; cases h
    | ok o =>
      rw [hq, csPush_ok hq] at h
      replace h : (csL cb unix tail (2 :: seen) rest c (out ++ ([2, st] ++ gpsBytes unix))).bind _ = _ := h
      cases hr : csL cb unix tail (2 :: seen) rest c (out ++ ([2, st] ++ gpsBytes unix)) with
      | error u => rw [hr] at h; cases h
      | ok x =>
        rw [hr] at h
        obtain ⟨c1, o1, e2⟩ := x
        injection h with h
        simp only [Prod.mk.injEq] at h
        obtain ⟨rfl, rfl, rfl⟩ := h
        have hR := ih _ _ _ _ _ hr (by simpa using ht) hlt
        obtain ⟨hst, he1⟩ : st = (if cb.period then 0 else 1) ∧ List.filterMap callOf (e1 ++ [.getTime]) = Spec.calls cb.period codeSec tok [.period p.toNat] := by
          simp only [Spec.calls, List.flatMap_cons, List.flatMap_nil, List.append_nil, SyncCmd.calls]
          unfold csPeriod at hp
          cases hcb : cb.period with
          | false =>
            rw [hcb] at hp
            simp only [Bool.false_eq_true, if_false, Except.ok.injEq, Prod.mk.injEq] at hp
            obtain ⟨rfl, rfl⟩ := hp
            exact ⟨rfl, rfl⟩
          | true =>
            rw [hcb, if_pos rfl] at hp
            by_cases h5 : p.toNat ≤ 5
            · rw [periodOf_small h5] at hp
              simp only [Except.map, Except.ok.injEq, Prod.mk.injEq] at hp
              obtain ⟨rfl, rfl⟩ := hp
              refine ⟨rfl, ?_⟩
              show [SyncCall.period (BitVec.ofNat 32 (codeSec p.toNat)).toNat] = [SyncCall.period (codeSec p.toNat)]
              rw [BitVec.toNat_ofNat, Nat.mod_eq_of_lt (codeSec_lt h5)]
            · rw [periodOf_big (by omega)] at hp
              cases hp
        have hno : corrections (Spec.calls cb.period codeSec tok [.period p.toNat]) = [] := by
          simp only [Spec.calls, List.flatMap_cons, List.flatMap_nil, List.append_nil, SyncCmd.calls]
          split <;> rfl
        refine CsRes.cons (by simp) (CsRes.mk ?_ ?_ ⟨[], by rw [he1, List.append_nil], .inl rfl⟩ ?_ rfl) hR
        · simp only [answers, List.flatMap_cons, List.flatMap_nil, List.append_nil, SyncCmd.answer, gpsBytes_eq, hst]
        · rw [he1]
        · rw [he1, hno]
          show c.token.toNat = (c.token.toNat + 0) % 16
          omega
  | case7 seen cid hs h0 h1 h2 =>
    intro c out c' out' ev h ht hlt
    unfold readSync
    rw [if_neg hs, if_neg h0, if_neg h1, if_pos h2]
    unfold csL at h
    rw [if_neg hs, if_neg (by omega), if_neg h0, if_neg h1, if_pos h2] at h
    simp only [Except.ok.injEq, Prod.mk.injEq] at h
    obtain ⟨rfl, rfl, rfl⟩ := h
    exact (CsRes.nil hlt).skip
  | case8 seen cid hs h0 h1 h2 h3 b rest ih =>
    intro c out c' out' ev h ht hlt
    unfold readSync
    rw [if_neg hs, if_neg h0, if_neg h1, if_neg h2, if_pos h3]
    unfold csL at h
    rw [if_neg hs, if_neg (by omega), if_neg h0, if_neg h1, if_neg h2, if_pos h3] at h
    replace h : (csL cb unix tail (3 :: seen) rest { c with nbRep := b &&& 0x7 } out).bind _ = _ := h
    cases hr : csL cb unix tail (3 :: seen) rest { c with nbRep := b &&& 0x7 } out with
    | error u => rw [hr] at h; cases h
    | ok x =>
      rw [hr] at h
      obtain ⟨c1, o1, e2⟩ := x
      injection h with h
      simp only [Prod.mk.injEq] at h
      obtain ⟨rfl, rfl, rfl⟩ := h
      have hR := ih _ _ _ _ _ hr (by simpa using ht) hlt
      have hcalls : List.filterMap callOf (if b &&& 0x7 ≠ 0 then [.resync] else []) = Spec.calls cb.period codeSec tok [.resync (b.toNat % 8)] := by
        simp only [Spec.calls, List.flatMap_cons, List.flatMap_nil, List.append_nil, SyncCmd.calls]
        by_cases hb : b &&& 0x7 = 0
        · rw [if_neg (fun h => h hb), if_pos ((low3_zero b).mp hb)]; rfl
        · rw [if_pos hb, if_neg (fun h => hb ((low3_zero b).mpr h))]; rfl
      have hno : corrections (Spec.calls cb.period codeSec tok [.resync (b.toNat % 8)]) = [] := by
        simp only [Spec.calls, List.flatMap_cons, List.flatMap_nil, List.append_nil, SyncCmd.calls]
        split <;> rfl
      refine CsRes.cons (c1 := { c with nbRep := b &&& 0x7 }) (by simp) (CsRes.mk ?_ ?_ ⟨[], by rw [hcalls, List.append_nil], .inl rfl⟩ ?_ rfl) hR
      · simp [answers, SyncCmd.answer]
      · rw [hcalls]
      · rw [hcalls, hno]
        show c.token.toNat = (c.token.toNat + 0) % 16
        omega
  | case9 seen cid hs h0 h1 h2 h3 =>
    intro c out c' out' ev h ht hlt
    unfold readSync
    rw [if_neg hs, if_neg h0, if_neg h1, if_neg h2, if_pos h3]
    unfold csL at h
    rw [if_neg hs, if_neg (by omega), if_neg h0, if_neg h1, if_neg h2, if_pos h3] at h
    simp only [] at h
    cases tail with
    | nil => cases h
    | cons b tl =>
      simp only [Except.ok.injEq, Prod.mk.injEq] at h
      obtain ⟨rfl, rfl, rfl⟩ := h
      have hno : corrections (List.filterMap callOf (if b &&& 0x7 ≠ 0 then [.resync] else [])) = [] := by split <;> rfl
      refine CsRes.mk ?_ ?_ ?_ ?_ rfl
      · simp [answers, SyncCmd.answer]
      · rw [hno]; rfl
      · split
        · exact ⟨[.resync], rfl, .inr ⟨rfl, by simp⟩⟩
        · exact ⟨[], rfl, .inl rfl⟩
      · rw [hno]
        show c.token.toNat = (c.token.toNat + 0) % 16
        omega
  | case10 seen cid rest hs h0 h1 h2 h3 h8 ih =>
    intro c out c' out' ev h ht hlt
    unfold readSync
    rw [if_neg hs, if_neg h0, if_neg h1, if_neg h2, if_neg h3, if_pos h8]
    unfold csL at h
    rw [if_neg hs, if_neg (by omega), if_neg h0, if_neg h1, if_neg h2, if_neg h3, if_pos h8] at h
    exact (ih _ _ _ _ _ h (by intro hx; rw [List.contains_cons] at hx; exact ht (by simp at hx; simpa using hx.2)) hlt).skip
  | case11 seen cid rest hs h0 h1 h2 h3 h8 h31 ih =>
    intro c out c' out' ev h ht hlt
    unfold readSync
    rw [if_neg hs, if_neg h0, if_neg h1, if_neg h2, if_neg h3, if_neg h8, if_pos h31]
    unfold csL at h
    rw [if_neg hs, if_neg (by omega), if_neg h0, if_neg h1, if_neg h2, if_neg h3, if_neg h8] at h
    exact (ih _ _ _ _ _ h ht hlt).skip
  | case12 seen cid rest hs h0 h1 h2 h3 h8 h31 =>
    intro c out c' out' ev h ht hlt
    unfold csL at h
    rw [if_neg hs, if_pos (by omega)] at h
    cases h

/-! ### When the parser fails -/

theorem fault_cons {cb : Bool} {n : Prop} {x : SyncCmd} {l : List SyncCmd} (h : Fault cb n l) : Fault cb n (x :: l) := by
  rcases h with ⟨h, hn⟩ | h | ⟨h1, p, h2, h3⟩
  · exact .inl ⟨List.mem_cons_of_mem _ h, hn⟩
  · exact .inr (.inl (List.mem_cons_of_mem _ h))
  · exact .inr (.inr ⟨h1, p, h2, List.mem_cons_of_mem _ h3⟩)

theorem bind_err {α β : Type} {x : Except UB α} {f : α → Except UB β} {u : UB} (h : x.bind f = .error u) :
    x = .error u ∨ ∃ a, x = .ok a ∧ f a = .error u := by
  cases x with
  | error v =>
    left
    injection h with h
    rw [h]
  | ok a => exact .inr ⟨a, rfl, h⟩

/-- The space the answers still to come may need. -/
def need (seen : List Nat) : Nat := (if seen.contains 0 then 0 else 3) + (if seen.contains 2 then 0 else 6)

theorem need_cons (k : Nat) (seen : List Nat) : need (k :: seen) ≤ need seen := by
  simp only [need, List.contains_cons]
  cases (0 == k) <;> cases (2 == k) <;> cases seen.contains 0 <;> cases seen.contains 2 <;> decide

theorem csL_err {cb : CsCbs} {unix : U32} {tail : Bytes} (seen : List Nat) (data : Bytes) : ∀ (c : Cs) (out : Bytes) (u : UB),
    csL cb unix tail seen data c out = .error u → out.length + need seen ≤ 32 → Fault cb.period (tail = []) (readSync seen data) := by
  induction seen, data using readSync.induct with
  | case1 seen => intro c out u h _; cases h
  | case2 seen cid rest hs =>
    intro c out u h _
    unfold csL at h
    rw [if_pos hs] at h
    cases h
  | case3 seen cid rest hs h0 ih =>
    intro c out u h hn
    unfold readSync
    rw [if_neg hs, if_pos h0]
    unfold csL at h
    rw [if_neg hs, if_neg (by omega), if_pos h0] at h
    rw [h0] at hs
    have hneed : need (0 :: seen) + 3 = need seen := by
      simp only [need, List.contains_cons, show seen.contains 0 = false by simpa using hs]
      simp; omega
    unfold csPush at h
    rw [if_pos (by show out.length + 3 ≤ 32; omega)] at h
    exact fault_cons (ih _ _ _ h (by rw [List.length_append]; show out.length + 3 + _ ≤ 32; omega))
  | case4 seen cid hs h0 h1 a b d e t rest ih =>
    intro c out u h hn
    unfold readSync
    rw [if_neg hs, if_neg h0, if_pos h1]
    unfold csL at h
    rw [if_neg hs, if_neg (by omega), if_neg h0, if_pos h1] at h
    have := need_cons 1 seen
    simp only [] at h
    split at h <;> rcases bind_err h with h | ⟨x, -, h⟩
    · exact fault_cons (ih _ _ _ h (by omega))
    · cases h
    · exact fault_cons (ih _ _ _ h (by omega))
    · cases h
  | case5 seen cid hs h0 h1 rest hx ih =>
    intro c out u h hn
    unfold readSync
    rw [if_neg hs, if_neg h0, if_pos h1]
    unfold csL at h
    rw [if_neg hs, if_neg (by omega), if_neg h0, if_pos h1] at h
    have := need_cons 1 seen
    split at h
    · exact (hx _ _ _ _ _ _ rfl).elim
    · have hF := ih _ _ _ h (by omega)
      split
      · exact (hx _ _ _ _ _ _ rfl).elim
      · exact fault_cons hF
  | case6 seen cid hs h0 h1 h2 p rest ih =>
    intro c out u h hn
    unfold readSync
    rw [if_neg hs, if_neg h0, if_neg h1, if_pos h2]
    unfold csL at h
    rw [if_neg hs, if_neg (by omega), if_neg h0, if_neg h1, if_pos h2] at h
    rw [h2] at hs
    have hneed : need (2 :: seen) + 6 = need seen := by
      simp only [need, List.contains_cons, show seen.contains 2 = false by simpa using hs]
      simp
    simp only [] at h
    rcases bind_err h with h | ⟨x, -, h⟩
    · unfold csPeriod at h
      split at h
      · next hcb =>
        by_cases h5 : p.toNat ≤ 5
        · rw [periodOf_small h5] at h; cases h
        · exact .inr (.inr ⟨hcb, _, Nat.not_le.mp h5, List.mem_cons_self⟩)
      · cases h
    · rcases bind_err h with h | ⟨o, ho, h⟩
      · unfold csPush at h
        rw [if_pos (by show out.length + 6 ≤ 32; omega)] at h
        cases h
      · rcases bind_err h with h | ⟨y, -, h⟩
        · refine fault_cons (ih _ _ _ h ?_)
          rw [csPush_ok ho, List.length_append]
          show out.length + 6 + _ ≤ 32
          omega
        · cases h
  | case7 seen cid hs h0 h1 h2 =>
    intro c out u h hn
    unfold csL at h
    rw [if_neg hs, if_neg (by omega), if_neg h0, if_neg h1, if_pos h2] at h
    cases h
  | case8 seen cid hs h0 h1 h2 h3 b rest ih =>
    intro c out u h hn
    unfold readSync
    rw [if_neg hs, if_neg h0, if_neg h1, if_neg h2, if_pos h3]
    unfold csL at h
    rw [if_neg hs, if_neg (by omega), if_neg h0, if_neg h1, if_neg h2, if_pos h3] at h
    have := need_cons 3 seen
    rcases bind_err h with h | ⟨x, -, h⟩
    · exact fault_cons (ih _ _ _ h (by omega))
    · cases h
  | case9 seen cid hs h0 h1 h2 h3 =>
    intro c out u h hn
    unfold readSync
    rw [if_neg hs, if_neg h0, if_neg h1, if_neg h2, if_pos h3]
    unfold csL at h
    rw [if_neg hs, if_neg (by omega), if_neg h0, if_neg h1, if_neg h2, if_pos h3] at h
    simp only [] at h
    cases tail with
    | nil => exact .inl ⟨by simp, rfl⟩
    | cons b tl => cases h
  | case10 seen cid rest hs h0 h1 h2 h3 h8 ih =>
    intro c out u h hn
    unfold readSync
    rw [if_neg hs, if_neg h0, if_neg h1, if_neg h2, if_neg h3, if_pos h8]
    unfold csL at h
    rw [if_neg hs, if_neg (by omega), if_neg h0, if_neg h1, if_neg h2, if_neg h3, if_pos h8] at h
    have := need_cons cid.toNat seen
    exact fault_cons (ih _ _ _ h (by omega))
  | case11 seen cid rest hs h0 h1 h2 h3 h8 h31 ih =>
    intro c out u h hn
    unfold readSync
    rw [if_neg hs, if_neg h0, if_neg h1, if_neg h2, if_neg h3, if_neg h8, if_pos h31]
    unfold csL at h
    rw [if_neg hs, if_neg (by omega), if_neg h0, if_neg h1, if_neg h2, if_neg h3, if_neg h8] at h
    exact fault_cons (ih _ _ _ h hn)
  | case12 seen cid rest hs h0 h1 h2 h3 h8 h31 =>
    intro c out u h hn
    unfold readSync
    rw [if_neg hs, if_neg h0, if_neg h1, if_neg h2, if_neg h3, if_neg h8, if_neg h31]
    exact .inr (.inl (by simp))

theorem csL_fault {cb : CsCbs} {unix : U32} {tail : Bytes} (seen : List Nat) (data : Bytes) : ∀ (c : Cs) (out : Bytes),
    Fault cb.period (tail = []) (readSync seen data) → ∃ u, csL cb unix tail seen data c out = .error u := by
  have hno : ∀ x l, (x = SyncCmd.version ∨ x = .skip ∨ (∃ v t, x = .timeAns v t) ∨ (∃ n, x = .resync n) ∨ ∃ p, x = .period p ∧ (cb.period = true → p ≤ 5)) →
      Fault cb.period (tail = []) (x :: l) → Fault cb.period (tail = []) l := by
    intro x l hx hF
    rcases hF with ⟨h, hn⟩ | h | ⟨h1, p, h2, h3⟩
    · refine .inl ⟨?_, hn⟩
      rcases List.mem_cons.mp h with h | h
      · subst h; simp at hx
      · exact h
    · refine .inr (.inl ?_)
      rcases List.mem_cons.mp h with h | h
      · subst h; simp at hx
      · exact h
    · refine .inr (.inr ⟨h1, p, h2, ?_⟩)
      rcases List.mem_cons.mp h3 with h | h
      · subst h
        simp only [reduceCtorEq, false_or, SyncCmd.period.injEq, exists_const, exists_eq_left'] at hx
        have := hx h1
        omega
      · exact h
  induction seen, data using readSync.induct with
  | case1 seen => intro c out h; rcases h with ⟨h, -⟩ | h | ⟨-, _, -, h⟩ <;> cases h
  | case2 seen cid rest hs =>
    intro c out h
    unfold readSync at h
    rw [if_pos hs] at h
    rcases h with ⟨h, -⟩ | h | ⟨-, _, -, h⟩ <;> cases h
  | case3 seen cid rest hs h0 ih =>
    intro c out h
    unfold readSync at h
    rw [if_neg hs, if_pos h0] at h
    unfold csL
    rw [if_neg hs, if_neg (by omega), if_pos h0]
    show ∃ u, (csPush out [0, 1, 1]).bind _ = _
    cases csPush out [0, 1, 1] with
    | error u => exact ⟨u, rfl⟩
    | ok o => exact ih c o (hno _ _ (by simp) h)
  | case4 seen cid hs h0 h1 a b d e t rest ih =>
    intro c out h
    unfold readSync at h
    rw [if_neg hs, if_neg h0, if_pos h1] at h
    replace h := hno _ _ (by simp) h
    unfold csL
    rw [if_neg hs, if_neg (by omega), if_neg h0, if_pos h1]
    simp only []
    split
    · obtain ⟨u, hu⟩ := ih { c with token := (c.token + 1) &&& 0xf } out h
      rw [hu]; exact ⟨u, rfl⟩
    · obtain ⟨u, hu⟩ := ih c out h
      rw [hu]; exact ⟨u, rfl⟩
  | case5 seen cid hs h0 h1 rest hx ih =>
    intro c out h
    unfold readSync at h
    rw [if_neg hs, if_neg h0, if_pos h1] at h
    have h' : Fault cb.period (tail = []) (readSync (1 :: seen) rest) := by
      split at h
      · exact (hx _ _ _ _ _ _ rfl).elim
      · exact hno _ _ (by simp) h
    unfold csL
    rw [if_neg hs, if_neg (by omega), if_neg h0, if_pos h1]
    split
    · exact (hx _ _ _ _ _ _ rfl).elim
    · exact ih c out h'
  | case6 seen cid hs h0 h1 h2 p rest ih =>
    intro c out h
    unfold readSync at h
    rw [if_neg hs, if_neg h0, if_neg h1, if_pos h2] at h
    unfold csL
    rw [if_neg hs, if_neg (by omega), if_neg h0, if_neg h1, if_pos h2]
    simp only []
    show ∃ u, (csPeriod cb p).bind _ = _
    cases hp : csPeriod cb p with
    | error u => exact ⟨u, rfl⟩
    | ok x =>
      have h5 : cb.period = true → p.toNat ≤ 5 := by
        intro hcb
        apply Nat.le_of_not_lt
        intro hlt
        unfold csPeriod at hp
        rw [if_pos hcb, periodOf_big hlt] at hp
        cases hp
      show ∃ u, (csPush out ([2, x.1] ++ gpsBytes unix)).bind _ = _
      cases csPush out ([2, x.1] ++ gpsBytes unix) with
      | error u => exact ⟨u, rfl⟩
      | ok o =>
        obtain ⟨u, hu⟩ := ih c o (hno _ _ (by simpa using h5) h)
        refine ⟨u, ?_⟩
        show (csL cb unix tail (2 :: seen) rest c o).bind _ = _
        rw [hu]; rfl
  | case7 seen cid hs h0 h1 h2 =>
    intro c out h
    unfold readSync at h
    rw [if_neg hs, if_neg h0, if_neg h1, if_pos h2] at h
    rcases h with ⟨h, -⟩ | h | ⟨-, _, -, h⟩ <;> simp at h
  | case8 seen cid hs h0 h1 h2 h3 b rest ih =>
    intro c out h
    unfold readSync at h
    rw [if_neg hs, if_neg h0, if_neg h1, if_neg h2, if_pos h3] at h
    unfold csL
    rw [if_neg hs, if_neg (by omega), if_neg h0, if_neg h1, if_neg h2, if_pos h3]
    obtain ⟨u, hu⟩ := ih { c with nbRep := b &&& 0x7 } out (hno _ _ (by simp) h)
    refine ⟨u, ?_⟩
    show (csL cb unix tail (3 :: seen) rest _ out).bind _ = _
    rw [hu]; rfl
  | case9 seen cid hs h0 h1 h2 h3 =>
    intro c out h
    unfold readSync at h
    rw [if_neg hs, if_neg h0, if_neg h1, if_neg h2, if_pos h3] at h
    unfold csL
    rw [if_neg hs, if_neg (by omega), if_neg h0, if_neg h1, if_neg h2, if_pos h3]
    simp only []
    rcases h with ⟨-, h⟩ | h | ⟨-, _, -, h⟩
    · subst h; exact ⟨_, rfl⟩
    · simp at h
    · simp at h
  | case10 seen cid rest hs h0 h1 h2 h3 h8 ih =>
    intro c out h
    unfold readSync at h
    rw [if_neg hs, if_neg h0, if_neg h1, if_neg h2, if_neg h3, if_pos h8] at h
    unfold csL
    rw [if_neg hs, if_neg (by omega), if_neg h0, if_neg h1, if_neg h2, if_neg h3, if_pos h8]
    exact ih c out (hno _ _ (by simp) h)
  | case11 seen cid rest hs h0 h1 h2 h3 h8 h31 ih =>
    intro c out h
    unfold readSync at h
    rw [if_neg hs, if_neg h0, if_neg h1, if_neg h2, if_neg h3, if_neg h8, if_pos h31] at h
    unfold csL
    rw [if_neg hs, if_neg (by omega), if_neg h0, if_neg h1, if_neg h2, if_neg h3, if_neg h8]
    exact ih c out (hno _ _ (by simp) h)
  | case12 seen cid rest hs h0 h1 h2 h3 h8 h31 =>
    intro c out h
    unfold csL
    rw [if_neg hs, if_pos (by omega)]
    exact ⟨_, rfl⟩

/-- Unless the packet ends with a cut ForceDeviceResyncReq, the memory behind it does not matter. -/
theorem csL_tail {cb : CsCbs} {unix : U32} {tail : Bytes} (seen : List Nat) (data : Bytes) : ∀ (c : Cs) (out : Bytes),
    .cut ∉ readSync seen data → csL cb unix tail seen data c out = csL cb unix [] seen data c out := by
  induction seen, data using readSync.induct with
  | case1 seen => intro c out _; rfl
  | case2 seen cid rest hs =>
    intro c out _
    unfold csL
    rw [if_pos hs, if_pos hs]
  | case3 seen cid rest hs h0 ih =>
    intro c out h
    unfold readSync at h
    rw [if_neg hs, if_pos h0] at h
    have h' := fun hm => h (List.mem_cons_of_mem _ hm)
    unfold csL
    simp only [if_neg hs, if_pos h0, fun c out => ih c out h']
  | case4 seen cid hs h0 h1 a b d e t rest ih =>
    intro c out h
    unfold readSync at h
    rw [if_neg hs, if_neg h0, if_pos h1] at h
    have h' := fun hm => h (List.mem_cons_of_mem _ hm)
    unfold csL
    simp only [if_neg hs, if_neg h0, if_pos h1, fun c out => ih c out h']
  | case5 seen cid hs h0 h1 rest hx ih =>
    intro c out h
    unfold readSync at h
    rw [if_neg hs, if_neg h0, if_pos h1] at h
    have h' : .cut ∉ readSync (1 :: seen) rest := by
      split at h
      · exact (hx _ _ _ _ _ _ rfl).elim
      · exact fun hm => h (List.mem_cons_of_mem _ hm)
    unfold csL
    simp only [if_neg hs, if_neg h0, if_pos h1]
    split
    · rfl
    · exact ih c out h'
  | case6 seen cid hs h0 h1 h2 p rest ih =>
    intro c out h
    unfold readSync at h
    rw [if_neg hs, if_neg h0, if_neg h1, if_pos h2] at h
    have h' := fun hm => h (List.mem_cons_of_mem _ hm)
    unfold csL
    simp only [if_neg hs, if_neg h0, if_neg h1, if_pos h2, fun c out => ih c out h']
  | case7 seen cid hs h0 h1 h2 =>
    intro c out h
    unfold csL
    simp only [if_neg hs, if_neg h0, if_neg h1, if_pos h2]
  | case8 seen cid hs h0 h1 h2 h3 b rest ih =>
    intro c out h
    unfold readSync at h
    rw [if_neg hs, if_neg h0, if_neg h1, if_neg h2, if_pos h3] at h
    have h' := fun hm => h (List.mem_cons_of_mem _ hm)
    unfold csL
    simp only [if_neg hs, if_neg h0, if_neg h1, if_neg h2, if_pos h3, fun c out => ih c out h']
  | case9 seen cid hs h0 h1 h2 h3 =>
    intro c out h
    unfold readSync at h
    rw [if_neg hs, if_neg h0, if_neg h1, if_neg h2, if_pos h3] at h
    exact (h (by simp)).elim
  | case10 seen cid rest hs h0 h1 h2 h3 h8 ih =>
    intro c out h
    unfold readSync at h
    rw [if_neg hs, if_neg h0, if_neg h1, if_neg h2, if_neg h3, if_pos h8] at h
    have h' := fun hm => h (List.mem_cons_of_mem _ hm)
    unfold csL
    simp only [if_neg hs, if_neg h0, if_neg h1, if_neg h2, if_neg h3, if_pos h8, fun c out => ih c out h']
  | case11 seen cid rest hs h0 h1 h2 h3 h8 h31 ih =>
    intro c out h
    unfold readSync at h
    rw [if_neg hs, if_neg h0, if_neg h1, if_neg h2, if_neg h3, if_neg h8, if_pos h31] at h
    have h' := fun hm => h (List.mem_cons_of_mem _ hm)
    unfold csL
    simp only [if_neg hs, if_neg h0, if_neg h1, if_neg h2, if_neg h3, if_neg h8, fun c out => ih c out h']
  | case12 seen cid rest hs h0 h1 h2 h3 h8 h31 =>
    intro c out h
    unfold csL
    simp only [if_neg hs, if_pos (Nat.not_lt.mp h31)]

/-! ### Facts about packets -/

theorem count_le_cons {P : SyncCmd → Bool} {x : SyncCmd} {l : List SyncCmd} {k j : Nat} {seen : List Nat}
    (h : l.countP P ≤ if (k :: seen).contains j then 0 else 1) (hx : P x = true → k = j ∧ seen.contains j = false) :
    (x :: l).countP P ≤ if seen.contains j then 0 else 1 := by
  rw [List.countP_cons]
  rw [List.contains_cons] at h
  generalize l.countP P = n at h ⊢
  cases hP : P x with
  | true =>
    obtain ⟨rfl, hs⟩ := hx hP
    rw [hs]
    rw [BEq.rfl, Bool.true_or, if_pos rfl] at h
    simp; omega
  | false =>
    simp only [Bool.false_eq_true, if_false, Nat.add_zero]
    cases hs : seen.contains j with
    | true => rw [hs, Bool.or_true] at h; exact h
    | false =>
      simp only [Bool.false_eq_true, if_false]
      refine Nat.le_trans h ?_
      split <;> omega

theorem read_once (P : SyncCmd → Bool) (j : Nat) (hv : P .version = true → j = 0) (ht : ∀ v t, P (.timeAns v t) = true → j = 1)
    (hp : ∀ p, P (.period p) = true → j = 2) (hr : ∀ n, P (.resync n) = true → j = 3) (hc : P .cut = true → j = 3)
    (hs : P .skip = false) (hw : P .wild = false) (seen : List Nat) (data : Bytes) :
    (readSync seen data).countP P ≤ if seen.contains j then 0 else 1 := by
  have hnot : ∀ {cid : Byte} {k : Nat} {seen : List Nat}, ¬ seen.contains cid.toNat = true → cid.toNat = k → j = k → k = j ∧ seen.contains j = false := by
    intro cid k seen h1 h2 h3
    subst h3
    rw [h2] at h1
    exact ⟨rfl, by simpa using h1⟩
  induction seen, data using readSync.induct with
  | case1 seen => simp [readSync]
  | case2 seen cid rest hs => unfold readSync; rw [if_pos hs]; simp
  | case3 seen cid rest hs h0 ih =>
    unfold readSync; rw [if_neg hs, if_pos h0]
    exact count_le_cons ih fun h => hnot hs h0 (hv h)
  | case4 seen cid hs h0 h1 a b d e t rest ih =>
    unfold readSync; rw [if_neg hs, if_neg h0, if_pos h1]
    exact count_le_cons ih fun h => hnot hs h1 (ht _ _ h)
  | case5 seen cid hs h0 h1 rest hx ih =>
    unfold readSync; rw [if_neg hs, if_neg h0, if_pos h1]
    split
    · exact (hx _ _ _ _ _ _ rfl).elim
    · refine count_le_cons ih fun h => ?_
      rw [‹P .skip = false›] at h; cases h
  | case6 seen cid hs h0 h1 h2 p rest ih =>
    unfold readSync; rw [if_neg hs, if_neg h0, if_neg h1, if_pos h2]
    exact count_le_cons ih fun h => hnot hs h2 (hp _ h)
  | case7 seen cid hs h0 h1 h2 =>
    unfold readSync; rw [if_neg hs, if_neg h0, if_neg h1, if_pos h2]
    simp [‹P .skip = false›]
  | case8 seen cid hs h0 h1 h2 h3 b rest ih =>
    unfold readSync; rw [if_neg hs, if_neg h0, if_neg h1, if_neg h2, if_pos h3]
    exact count_le_cons ih fun h => hnot hs h3 (hr _ h)
  | case9 seen cid hs h0 h1 h2 h3 =>
    unfold readSync; rw [if_neg hs, if_neg h0, if_neg h1, if_neg h2, if_pos h3]
    exact count_le_cons (k := 3) (seen := seen) (by simp) fun h => hnot hs h3 (hc h)
  | case10 seen cid rest hs h0 h1 h2 h3 h8 ih =>
    unfold readSync; rw [if_neg hs, if_neg h0, if_neg h1, if_neg h2, if_neg h3, if_pos h8]
    refine count_le_cons ih fun h => ?_
    rw [‹P .skip = false›] at h; cases h
  | case11 seen cid rest hs h0 h1 h2 h3 h8 h31 ih =>
    unfold readSync; rw [if_neg hs, if_neg h0, if_neg h1, if_neg h2, if_neg h3, if_neg h8, if_pos h31]
    rw [List.countP_cons, ‹P .skip = false›]
    exact ih
  | case12 seen cid rest hs h0 h1 h2 h3 h8 h31 =>
    unfold readSync; rw [if_neg hs, if_neg h0, if_neg h1, if_neg h2, if_neg h3, if_neg h8, if_neg h31]
    simp [hw]

/-- Where a clock correction comes from. -/
theorem read_time {v : Int} {tk : Nat} (seen : List Nat) (data : Bytes) (h : .timeAns v tk ∈ readSync seen data) :
    ∃ pre a b d e t rest, data = pre ++ [1, a, b, d, e, t] ++ rest ∧ v = signed32 (leNat [a, b, d, e]) ∧ tk = t.toNat % 16 := by
  have put : ∀ (x : Bytes) (data : Bytes), (∃ pre a b d e t rest, data = pre ++ [1, a, b, d, e, t] ++ rest ∧ v = signed32 (leNat [a, b, d, e]) ∧ tk = t.toNat % 16) →
      ∃ pre a b d e t rest, x ++ data = pre ++ [1, a, b, d, e, t] ++ rest ∧ v = signed32 (leNat [a, b, d, e]) ∧ tk = t.toNat % 16 := by
    rintro x data ⟨pre, a, b, d, e, t, rest, rfl, h⟩
    exact ⟨x ++ pre, a, b, d, e, t, rest, by simp, h⟩
  induction seen, data using readSync.induct with
  | case1 seen => cases h
  | case2 seen cid rest hs => unfold readSync at h; rw [if_pos hs] at h; cases h
  | case3 seen cid rest hs h0 ih =>
    unfold readSync at h; rw [if_neg hs, if_pos h0] at h
    exact put [cid] rest (ih (by simpa using h))
  | case4 seen cid hs h0 h1 a b d e t rest ih =>
    unfold readSync at h; rw [if_neg hs, if_neg h0, if_pos h1] at h
    rcases List.mem_cons.mp h with h | h
    · injection h with h2 h3
      have : cid = 1 := BitVec.eq_of_toNat_eq h1
      subst this
      exact ⟨[], a, b, d, e, t, rest, rfl, h2, h3⟩
    · exact put [cid, a, b, d, e, t] rest (ih h)
  | case5 seen cid hs h0 h1 rest hx ih =>
    unfold readSync at h; rw [if_neg hs, if_neg h0, if_pos h1] at h
    split at h
    · exact (hx _ _ _ _ _ _ rfl).elim
    · exact put [cid] _ (ih (by simpa using h))
  | case6 seen cid hs h0 h1 h2 p rest ih =>
    unfold readSync at h; rw [if_neg hs, if_neg h0, if_neg h1, if_pos h2] at h
    exact put [cid, p] rest (ih (by simpa using h))
  | case7 seen cid hs h0 h1 h2 =>
    unfold readSync at h; rw [if_neg hs, if_neg h0, if_neg h1, if_pos h2] at h
    simp at h
  | case8 seen cid hs h0 h1 h2 h3 b rest ih =>
    unfold readSync at h; rw [if_neg hs, if_neg h0, if_neg h1, if_neg h2, if_pos h3] at h
    exact put [cid, b] rest (ih (by simpa using h))
  | case9 seen cid hs h0 h1 h2 h3 =>
    unfold readSync at h; rw [if_neg hs, if_neg h0, if_neg h1, if_neg h2, if_pos h3] at h
    simp at h
  | case10 seen cid rest hs h0 h1 h2 h3 h8 ih =>
    unfold readSync at h; rw [if_neg hs, if_neg h0, if_neg h1, if_neg h2, if_neg h3, if_pos h8] at h
    exact put [cid] rest (ih (by simpa using h))
  | case11 seen cid rest hs h0 h1 h2 h3 h8 h31 ih =>
    unfold readSync at h; rw [if_neg hs, if_neg h0, if_neg h1, if_neg h2, if_neg h3, if_neg h8, if_pos h31] at h
    exact put [cid] rest (ih (by simpa using h))
  | case12 seen cid rest hs h0 h1 h2 h3 h8 h31 =>
    unfold readSync at h; rw [if_neg hs, if_neg h0, if_neg h1, if_neg h2, if_neg h3, if_neg h8, if_neg h31] at h
    simp at h

theorem answers_length (sup : Bool) (unix : Nat) (l : List SyncCmd) :
    (answers sup unix l).length = 3 * l.countP (fun | .version => true | _ => false) + 6 * l.countP (fun | .period _ => true | _ => false) := by
  induction l with
  | nil => rfl
  | cons x l ih =>
    unfold answers at ih ⊢
    rw [List.flatMap_cons, List.length_append, ih, List.countP_cons, List.countP_cons]
    cases x <;> simp [SyncCmd.answer, leBytes_length] <;> omega

theorem answers_le (sup : Bool) (unix : Nat) (data : Bytes) : (answers sup unix (readSync [] data)).length ≤ 9 := by
  rw [answers_length]
  have h1 := read_once (fun | .version => true | _ => false) 0 (by simp) (by simp) (by simp) (by simp) (by simp) rfl rfl [] data
  have h2 := read_once (fun | .period _ => true | _ => false) 2 (by simp) (by simp) (by simp) (by simp) (by simp) rfl rfl [] data
  simp at h1 h2
  omega

end Uwan
