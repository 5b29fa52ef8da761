import Verif.Lemmas.CodeSwitch

/-! # The loop of `handle_answ` of `ext/clock_sync.c` -/

namespace Uwan.C

/-- How long the answer can be after the commands in `mask`. -/
def room (mask : Byte) : Nat := (if mask &&& 1 = 0 then 0 else 3) + (if mask &&& 4 = 0 then 0 else 6)

/-- The length of the answer to one command. -/
def grow (x : Nat) : Nat := if x = 0 then 3 else if x = 2 then 6 else 0

theorem mask_facts : ∀ (mask : Byte) (x : Fin 32), mask &&& BitVec.ofNat 8 (2 ^ x.val) = 0 →
    (mask &&& 4 ≠ 0 → (mask ||| BitVec.ofNat 8 (2 ^ x.val)) &&& 4 ≠ 0) ∧ room mask + grow x.val ≤ room (mask ||| BitVec.ofNat 8 (2 ^ x.val)) ∧
    (x.val = 2 → mask &&& 4 = 0 ∧ (mask ||| BitVec.ofNat 8 (2 ^ x.val)) &&& 4 ≠ 0) := by decide +kernel

theorem room_le (mask : Byte) : room mask ≤ 9 := by
  unfold room
  split <;> split <;> omega

theorem Mid.mono {mask mask' : Byte} {b : List Val} {B : Objs} (h : Mid mask b B) (hm : mask &&& 4 ≠ 0 → mask' &&& 4 ≠ 0) : Mid mask' b B := by
  cases h with
  | two a => exact .two a
  | three a c h => exact .three a c (hm h)
  | four a c d h => exact .four a c d (hm h)

theorem Mid.get_cmd {mask mask' : Byte} {b : List Val} {B : Objs} (h : Mid mask b B) (size off aoff : Int) (corr per tok : Val) :
    (ansFrame B size off aoff mask' corr per tok).get "cmd" = some b := by
  cases h <;> rfl

theorem orOob_at {mem : Bytes} {i : Nat} (h : i < mem.length) : orOob mem[i]? = .ok (byteAt mem i) := by
  unfold byteAt
  rw [Int.toNat_natCast, List.getD_eq_getElem?_getD, List.getElem?_eq_getElem h]
  rfl

/-- A state of the loop. -/
structure Ready (cb : CsCbs) (off : Nat) (mask : Byte) (c : Cs) (out tl : Bytes) (A : Objs) (corr per tok : Val) : Prop where
  cbs : c.cbs = some cb
  off : off < 256
  pre : Pre mask A
  corr : Slot .i32 corr
  per : Slot .u8 per
  tok : Slot .u8 tok
  room : out.length ≤ room mask
  len : out.length + tl.length = 32

/-- The memory in the loop. -/
def ansMem (cb : CsCbs) (n : Nat) (port : Byte) (mem : Bytes) (sz : Byte) (fs : List Objs) (off : Nat) (mask : Byte) (c : Cs) (out tl : Bytes) (A : Objs) (corr per tok : Val) (w : Around) : Mem Around :=
  ⟨encCs c (out ++ tl) n cb.period (packetObjs port sz.toNat mem), ansFrame A sz.toNat off out.length mask corr per tok :: fs, w⟩

section
variable (send : Sender) (L k : Nat) (cb : CsCbs) (n : Nat) (fs : List Objs) (w : Around) (port : Byte) (mem : Bytes) (sz : Byte)

theorem switch_at {x : Byte} {mask mask' : Byte} {B : Objs} (hB : Mid mask [.int .u8 x.toNat] B) {S : Stmt} {g g' : Objs} {s o a s' o' a' : Int} {corr per tok corr' per' tok' : Val} {w w' : Around} {B' : Objs} {m' : Byte}
    (hS : (x = 0 → S = ansVersion) ∧ (x = 1 → S = ansTime) ∧ (x = 2 → S = ansPeriod) ∧ (x = 3 → S = ansResync) ∧ (x ≠ 0 → x ≠ 1 → x ≠ 2 → x ≠ 3 → S = .brk))
    (h : exec (ansCtx send L k) S ⟨g, ansFrame B s o a mask' corr per tok :: fs, w⟩ = .ok (.brk, ⟨g', ansFrame B' s' o' a' m' corr' per' tok' :: fs, w'⟩)) :
    exec (ansCtx send L k) ansSwitch ⟨g, ansFrame B s o a mask' corr per tok :: fs, w⟩ = .ok (.next, ⟨g', ansFrame B' s' o' a' m' corr' per' tok' :: fs, w'⟩) := by
  have hg := hB.get_cmd (mask' := mask') s o a corr per tok
  obtain ⟨h0, h1, h2, h3, h4⟩ := hS
  unfold ansSwitch
  by_cases e0 : x = 0
  · rw [h0 e0] at h
    subst e0
    crun [hg, h, show ((0 : Byte).toNat : Int) = 0 from rfl]
  by_cases e1 : x = 1
  · rw [h1 e1] at h
    subst e1
    crun [hg, h, show ((1 : Byte).toNat : Int) = 1 from rfl]
  by_cases e2 : x = 2
  · rw [h2 e2] at h
    subst e2
    crun [hg, h, show ((2 : Byte).toNat : Int) = 2 from rfl]
  by_cases e3 : x = 3
  · rw [h3 e3] at h
    subst e3
    crun [hg, h, show ((3 : Byte).toNat : Int) = 3 from rfl]
  rw [h4 e0 e1 e2 e3, exec_brk] at h
  injection h with h
  injection h with _ h
  have n0 : (x.toNat : Int) ≠ 0 := fun h => e0 (BitVec.eq_of_toNat_eq (by simpa using (by omega : x.toNat = 0)))
  have n1 : (x.toNat : Int) ≠ 1 := fun h => e1 (BitVec.eq_of_toNat_eq (by simpa using (by omega : x.toNat = 1)))
  have n2 : (x.toNat : Int) ≠ 2 := fun h => e2 (BitVec.eq_of_toNat_eq (by simpa using (by omega : x.toNat = 2)))
  have n3 : (x.toNat : Int) ≠ 3 := fun h => e3 (BitVec.eq_of_toNat_eq (by simpa using (by omega : x.toNat = 3)))
  rw [← h]
  crun [hg]

theorem switch_fault {x : Byte} {mask mask' : Byte} {B : Objs} (hB : Mid mask [.int .u8 x.toNat] B) {S : Stmt} {g : Objs} {s o a : Int} {corr per tok : Val} {w : Around} {e : Fault}
    (hS : (x = 2 ∧ S = ansPeriod) ∨ (x = 3 ∧ S = ansResync))
    (h : exec (ansCtx send L k) S ⟨g, ansFrame B s o a mask' corr per tok :: fs, w⟩ = .error e) :
    exec (ansCtx send L k) ansSwitch ⟨g, ansFrame B s o a mask' corr per tok :: fs, w⟩ = .error e := by
  have hg := hB.get_cmd (mask' := mask') s o a corr per tok
  unfold ansSwitch
  rcases hS with ⟨rfl, rfl⟩ | ⟨rfl, rfl⟩
  · crun [hg, h, show ((2 : Byte).toNat : Int) = 2 from rfl]
  · crun [hg, h, show ((3 : Byte).toNat : Int) = 3 from rfl]

theorem six {α : Type} {l : List α} (h : 6 ≤ l.length) : ∃ a b c d e f r, l = a :: b :: c :: d :: e :: f :: r := by
  match l, h with
  | a :: b :: c :: d :: e :: f :: r, _ => exact ⟨a, b, c, d, e, f, r, rfl⟩

/-- One command. -/
theorem switch_run {off : Nat} {mask : Byte} {c : Cs} {out tl : Bytes} {B : Objs} {corr per tok : Val} {x : Byte} (hx : x.toNat ≤ 31) (hk : mask &&& BitVec.ofNat 8 (2 ^ x.toNat) = 0)
    (hB : Mid mask [.int .u8 x.toNat] B) (hcb : c.cbs = some cb) (ho : off ≤ sz.toNat) (hm : sz.toNat ≤ mem.length) (hL : 256 ≤ L) (hc : Slot .i32 corr) (hp : Slot .u8 per) (ht : Slot .u8 tok)
    (hr : out.length ≤ room mask) (hlen : out.length + tl.length = 32) :
    match csCmd cb mem sz w.unix x off c out with
    | .ok r => ∃ tl' A' corr' per' tok', Ready cb r.1 (mask ||| BitVec.ofNat 8 (2 ^ x.toNat)) r.2.1 r.2.2.1 tl' A' corr' per' tok' ∧
      exec (ansCtx send L k) ansSwitch (ansMem cb n port mem sz fs off (mask ||| BitVec.ofNat 8 (2 ^ x.toNat)) c out tl B corr per tok w) =
        .ok (.next, ansMem cb n port mem sz fs r.1 (mask ||| BitVec.ofNat 8 (2 ^ x.toNat)) r.2.1 r.2.2.1 tl' A' corr' per' tok' (w.say r.2.2.2))
    | .error _ => ∃ e, exec (ansCtx send L k) ansSwitch (ansMem cb n port mem sz fs off (mask ||| BitVec.ofNat 8 (2 ^ x.toNat)) c out tl B corr per tok w) = .error e := by
  obtain ⟨f1, f2, f3⟩ := mask_facts mask ⟨x.toNat, by omega⟩ hk
  have hrl := room_le mask
  have hsz := sz.isLt
  have hci : c.cbs.isSome := by rw [hcb]; rfl
  simp only at f1 f2 f3
  generalize hmk : mask ||| BitVec.ofNat 8 (2 ^ x.toNat) = mask' at *
  have hB' := hB.mono f1
  unfold ansMem
  unfold csCmd
  by_cases e0 : x = 0
  · have hg : grow x.toNat = 3 := by rw [e0]; rfl
    rw [if_pos e0]
    have : csPush out [0x0, 1, 1] = .ok (out ++ [0x0, 1, 1]) := by
      unfold csPush
      rw [if_pos (by simp; omega)]
    simp only [this, bind, Except.bind]
    obtain ⟨a, b, d, e, f, g, r, rfl⟩ := six (l := tl) (by omega)
    refine ⟨e :: f :: g :: r, B, corr, per, tok, ⟨hcb, by omega, .inr ⟨_, hB'⟩, hc, hp, ht, by simp; omega, by simp at hlen ⊢; omega⟩, ?_⟩
    rw [say_none]
    exact switch_at send L k fs hB ⟨fun _ => rfl, fun h => by simp_all, fun h => by simp_all, fun h => by simp_all, fun h => absurd e0 h⟩
      (sw_version send L k c n cb.period _ fs w mask mask' corr per tok hB out a b d (e :: f :: g :: r) sz.toNat off (by omega))
  rw [if_neg e0]
  by_cases e1 : x = 1
  · have hg : grow x.toNat = 0 := by rw [e1]; rfl
    rw [if_pos e1]
    by_cases hs : sz.toNat < off + 5
    · rw [if_pos hs]
      refine ⟨tl, B, corr, per, tok, ⟨hcb, by omega, .inr ⟨_, hB'⟩, hc, hp, ht, by simp; omega, hlen⟩, ?_⟩
      rw [say_none]
      exact switch_at send L k fs hB ⟨fun h => absurd h e0, fun _ => rfl, fun h => by simp_all, fun h => by simp_all, fun _ h => absurd e1 h⟩
        (sw_time_short send L k c n cb.period _ fs w sz.toNat off mask mask' corr per tok hB (out ++ tl) out.length ho (by omega) hs)
    · rw [if_neg hs, orOob_at (by omega), orOob_at (by omega), orOob_at (by omega), orOob_at (by omega), orOob_at (by omega)]
      have key := sw_time send L k c n cb.period fs w port mem sz.toNat off mask mask' corr per tok hB (out ++ tl) out.length (by omega) (by omega) hm hci hc ht _ _ _ _ _ rfl rfl rfl rfl rfl
      simp only [bind, Except.bind]
      by_cases htk : byteAt mem (off + 4 : Nat) &&& 0xf = c.token
      · rw [if_pos htk]
        rw [if_pos htk, if_pos htk] at key
        exact ⟨tl, B, _, per, _, ⟨hcb, by simp only; omega, .inr ⟨_, hB'⟩, slot_int _ _, hp, slot_int _ _, by simp; omega, hlen⟩,
          switch_at send L k fs hB ⟨fun h => absurd h e0, fun _ => rfl, fun h => by simp_all, fun h => by simp_all, fun _ h => absurd e1 h⟩ key⟩
      · rw [if_neg htk]
        rw [if_neg htk, if_neg htk, List.append_nil] at key
        exact ⟨tl, B, _, per, _, ⟨hcb, by simp only; omega, .inr ⟨_, hB'⟩, slot_int _ _, hp, slot_int _ _, by simp; omega, hlen⟩,
          switch_at send L k fs hB ⟨fun h => absurd h e0, fun _ => rfl, fun h => by simp_all, fun h => by simp_all, fun _ h => absurd e1 h⟩ key⟩
  rw [if_neg e1]
  by_cases e2 : x = 2
  · have hx2 : x.toNat = 2 := by rw [e2]; rfl
    have hg : grow x.toNat = 6 := by rw [hx2]; rfl
    rw [if_pos e2]
    have hS : (x = 0 → ansPeriod = ansVersion) ∧ (x = 1 → ansPeriod = ansTime) ∧ (x = 2 → ansPeriod = ansPeriod) ∧ (x = 3 → ansPeriod = ansResync) ∧ (x ≠ 0 → x ≠ 1 → x ≠ 2 → x ≠ 3 → ansPeriod = .brk) :=
      ⟨fun h => absurd h e0, fun h => absurd h e1, fun _ => rfl, fun h => by rw [e2] at h; exact absurd h (by decide), fun _ _ h => absurd e2 h⟩
    by_cases hs : sz.toNat < off + 1
    · rw [if_pos hs]
      refine ⟨tl, B, corr, per, tok, ⟨hcb, by omega, .inr ⟨_, hB'⟩, hc, hp, ht, by simp; omega, hlen⟩, ?_⟩
      rw [say_none]
      exact switch_at send L k fs hB hS (sw_period_short send L k c n cb.period _ fs w sz.toNat off mask mask' corr per tok hB (out ++ tl) out.length ho hs)
    · obtain ⟨g1, g2⟩ := f3 hx2
      have hB2 : ∃ cm, B = [("cmd_mask", cm), ("cmd", [.int .u8 x.toNat])] := by
        cases hB with
        | two a => exact ⟨a, rfl⟩
        | three a c h => exact absurd g1 h
        | four a c d h => exact absurd g1 h
      obtain ⟨cm, hBe⟩ := hB2
      obtain ⟨a, b, d, e, f, g, r, rfl⟩ := six (l := tl) (by omega)
      rw [if_neg hs, orOob_at (by omega)]
      simp only [bind, Except.bind]
      unfold csPeriod
      have hpush : ∀ st, csPush out ([0x2, st] ++ gpsBytes w.unix) = .ok (out ++ ([0x2, st] ++ gpsBytes w.unix)) := by
        intro st
        unfold csPush gpsBytes
        rw [if_pos (by simp; omega)]
      have hgl : (gpsBytes w.unix).length = 4 := rfl
      by_cases hper : cb.period = true
      · rw [if_pos hper]
        cases hpo : periodOf (byteAt mem off) with
        | error u =>
          simp only [Except.map]
          rw [hper]
          subst hBe
          exact ⟨_, switch_fault send L k fs hB (.inl ⟨e2, rfl⟩) (sw_period_wild send L k c n fs w port mem sz.toNat off mask' corr per tok out a (b :: d :: e :: f :: g :: r) (by omega) hci (by omega) (by omega) hm hp _ rfl hL u hpo)⟩
        | ok sec =>
          simp only [Except.map, hpush]
          rw [hper]
          have key := sw_period_some send L k c n fs w port mem sz.toNat off mask' corr per tok (cm := cm) (b := [.int .u8 x.toNat]) g2 out a b d e f g r (by omega) hci (by omega) (by omega) hm hp _ rfl hL sec hpo
          subst hBe
          exact ⟨r, _, corr, _, tok, ⟨hcb, by omega, .inr ⟨_, .four _ _ _ g2⟩, hc, slot_int _ _, ht, by simp [hgl]; omega, by simp [hgl] at hlen ⊢; omega⟩,
            switch_at send L k fs hB hS key⟩
      · have hper' : cb.period = false := by simpa using hper
        rw [if_neg hper]
        simp only [hpush]
        rw [hper']
        have key := sw_period_none send L k c n fs w port mem sz.toNat off mask' corr per tok (cm := cm) (b := [.int .u8 x.toNat]) g2 out a b d e f g r (by omega) hci (by omega) (by omega) hm hp _ rfl
        subst hBe
        exact ⟨r, _, corr, _, tok, ⟨hcb, by omega, .inr ⟨_, .three _ _ g2⟩, hc, slot_int _ _, ht, by simp [hgl]; omega, by simp [hgl] at hlen ⊢; omega⟩,
          switch_at send L k fs hB hS key⟩
  rw [if_neg e2]
  by_cases e3 : x = 3
  · have hg : grow x.toNat = 0 := by rw [e3]; rfl
    rw [if_pos e3]
    by_cases hl : off < mem.length
    · rw [orOob_at hl]
      simp only [bind, Except.bind]
      exact ⟨tl, B, corr, per, tok, ⟨hcb, by omega, .inr ⟨_, hB'⟩, hc, hp, ht, by omega, hlen⟩,
        switch_at send L k fs hB ⟨fun h => absurd h e0, fun h => absurd h e1, fun h => absurd h e2, fun _ => rfl, fun _ _ _ h => absurd e3 h⟩
          (sw_resync send L k c n cb.period fs w port mem sz.toNat off mask mask' corr per tok hB (out ++ tl) out.length (by omega) hl hci _ rfl)⟩
    · have : orOob mem[off]? = .error .oob := by
        rw [List.getElem?_eq_none (by omega)]
        rfl
      simp only [this, bind, Except.bind]
      exact ⟨_, switch_fault send L k fs hB (.inr ⟨e3, rfl⟩) (sw_resync_oob send L k c n cb.period fs w port mem sz.toNat off mask mask' corr per tok hB (out ++ tl) out.length (by omega) (by omega))⟩
  rw [if_neg e3]
  refine ⟨tl, B, corr, per, tok, ⟨hcb, by omega, .inr ⟨_, hB'⟩, hc, hp, ht, by simp; omega, hlen⟩, ?_⟩
  rw [say_none]
  exact switch_at send L k fs hB ⟨fun h => absurd h e0, fun h => absurd h e1, fun h => absurd h e2, fun h => absurd h e3, fun _ _ _ _ => rfl⟩ (exec_brk _ _)
end
end Uwan.C
