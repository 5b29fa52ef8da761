import Verif.Lemmas.CodeChannels

/-! # Reading and writing arrays of bytes -/

namespace Uwan.C

theorem Objs.get_put {g : Objs} {x : String} {v : List Val} (w : List Val) (h : g.get x = some v) : (g.put x w).get x = some w := by
  induction g with
  | nil => simp [Objs.get] at h
  | cons p g ih =>
    obtain ⟨y, u⟩ := p
    simp only [Objs.get] at h
    simp only [Objs.put]
    by_cases hy : y = x
    · simp [hy, Objs.get]
    · simp only [hy, if_false] at h ⊢
      simp only [Objs.get, hy, if_false]
      exact ih h

theorem Objs.put_put (g : Objs) (x : String) (v w : List Val) : (g.put x v).put x w = g.put x w := by
  induction g with
  | nil => rfl
  | cons p g ih =>
    obtain ⟨y, u⟩ := p
    simp only [Objs.put]
    by_cases hy : y = x
    · simp [hy, Objs.put]
    · simp only [hy, if_false, Objs.put]
      rw [ih]

theorem Objs.put_get {g : Objs} {x : String} {v : List Val} (h : g.get x = some v) : g.put x v = g := by
  induction g with
  | nil => rfl
  | cons p g ih =>
    obtain ⟨y, u⟩ := p
    simp only [Objs.get] at h
    simp only [Objs.put]
    by_cases hy : y = x
    · simp only [hy, if_true] at h ⊢
      injection h with h
      rw [h]
    · simp only [hy, if_false] at h ⊢
      rw [ih h]

section
variable {ω : Type}

theorem getObj_putObj {m : Mem ω} {fr : Option Nat} {x : String} {v : List Val} (w : List Val) (h : getObj m fr x = some v) :
    getObj (putObj m fr x w) fr x = some w := by
  cases fr with
  | none => exact Objs.get_put w h
  | some n =>
    simp only [getObj, putObj, frameAt] at h ⊢
    by_cases hn : n < m.frames.length
    · simp only [hn, if_true, List.length_modify] at h ⊢
      rw [List.getElem?_modify]
      simp only [if_true]
      cases hf : m.frames[m.frames.length - 1 - n]? with
      | none => simp [hf] at h
      | some f =>
        rw [hf] at h
        exact Objs.get_put w h
    · simp [hn] at h

theorem putObj_putObj (m : Mem ω) (fr : Option Nat) (x : String) (v w : List Val) : putObj (putObj m fr x v) fr x w = putObj m fr x w := by
  cases fr with
  | none => simp only [putObj, Objs.put_put]
  | some n =>
    simp only [putObj, List.length_modify]
    congr 1
    apply List.ext_getElem?
    intro i
    simp only [List.getElem?_modify]
    cases m.frames[i]? with
    | none => rfl
    | some f =>
      by_cases h : m.frames.length - 1 - n = i
      · simp [h, Objs.put_put]
      · simp [h]

theorem putObj_getObj {m : Mem ω} {fr : Option Nat} {x : String} {v : List Val} (h : getObj m fr x = some v) : putObj m fr x v = m := by
  cases fr with
  | none => simp only [putObj, Objs.put_get h]
  | some n =>
    simp only [putObj]
    have : m.frames.modify (m.frames.length - 1 - n) (fun l => l.put x v) = m.frames := by
      apply List.ext_getElem?
      intro i
      rw [List.getElem?_modify]
      simp only [getObj, frameAt] at h
      by_cases hn : n < m.frames.length
      · simp only [hn, if_true] at h
        by_cases hi : m.frames.length - 1 - n = i
        · rw [hi] at h
          cases hf : m.frames[i]? with
          | none => simp
          | some f =>
            rw [hf] at h
            simp only [hi, if_true, Option.map_some]
            exact congrArg some (Objs.put_get h)
        · simp [hi]
      · simp [hn] at h
    rw [this]

/-- Cells holding a value. -/
def Init (l : List Val) : Prop := ∀ v ∈ l, ∀ t, v ≠ .uninit t

theorem loads_cells (m : Mem ω) (fr : Option Nat) (o : String) (l : List Val) (hg : getObj m fr o = some l) (hi : Init l) (n : Nat) :
    ∀ off : Nat, off + n ≤ l.length → loads ⟨fr, o, off⟩ n m = .ok ((l.drop off).take n, m) := by
  induction n with
  | zero => intro off _; simp [loads, M.pure]
  | succ n ih =>
    intro off h
    have hv : l[off]? = some l[off] := List.getElem?_eq_getElem (by omega)
    have hl : loadRef ⟨fr, o, (off : Int)⟩ m = .ok (l[off], m) := by
      simp only [loadRef, hg, Int.toNat_natCast, hv]
      have := hi l[off] (List.getElem_mem _)
      cases he : l[off] <;> simp_all
    have h2 := ih (off + 1) (by omega)
    simp only [loads, M.bind, hl, Int.natCast_add, Int.natCast_one] at h2 ⊢
    rw [h2]
    simp only [M.pure]
    rw [List.drop_eq_getElem_cons (by omega : off < l.length), List.take_succ_cons]

/-- Cells a byte can be assigned to. -/
def ByteCells (l : List Val) : Prop := ∀ c ∈ l, ∀ b : Byte, assign c (byteVal b) = .ok (byteVal b)

theorem stores_cells (fr : Option Nat) (o : String) (v : Bytes) :
    ∀ (m : Mem ω) (l : List Val) (_ : getObj m fr o = some l) (_ : ByteCells l) (off : Nat) (_ : off + v.length ≤ l.length),
    stores ⟨fr, o, off⟩ (v.map byteVal) m = .ok ((), putObj m fr o (l.take off ++ v.map byteVal ++ l.drop (off + v.length))) := by
  induction v with
  | nil =>
    intro m l hg _ off h
    simp only [stores, List.map_nil, List.append_nil, List.length_nil, Nat.add_zero, List.take_append_drop, M.pure]
    rw [putObj_getObj hg]
  | cons b v ih =>
    intro m l hg hb off h
    simp only [List.length_cons] at h
    have hv : l[off]? = some l[off] := List.getElem?_eq_getElem (by omega)
    have hs : storeRef ⟨fr, o, (off : Int)⟩ (byteVal b) m = .ok (byteVal b, putObj m fr o (l.set off (byteVal b))) := by
      simp only [storeRef, hg, Int.toNat_natCast, hv]
      rw [hb l[off] (List.getElem_mem _) b]
      simp
    have hg2 := getObj_putObj (l.set off (byteVal b)) hg
    have hb2 : ByteCells (l.set off (byteVal b)) := by
      intro c hc b'
      rcases List.mem_or_eq_of_mem_set hc with h | h
      · exact hb c h b'
      · subst h
        simp only [byteVal, assign, Ty.conv]
        congr 2
        have := b'.isLt
        omega
    have h2 := ih (putObj m fr o (l.set off (byteVal b))) (l.set off (byteVal b)) hg2 hb2 (off + 1) (by simp; omega)
    simp only [stores, List.map_cons, M.bind, hs, Int.natCast_add, Int.natCast_one] at h2 ⊢
    rw [h2, putObj_putObj]
    congr 3
    have h3 : (l.set off (byteVal b)).take (off + 1) = l.take off ++ [byteVal b] := by
      rw [List.take_add_one, List.getElem?_set]
      simp only [if_true]
      rw [if_pos (by omega), List.take_set_of_le (by omega)]
      rfl
    have h4 : (l.set off (byteVal b)).drop (off + 1 + v.length) = l.drop (off + (v.length + 1)) := by
      rw [List.drop_set_of_lt (by omega)]
      congr 1
      omega
    rw [h3, h4]
    simp

theorem init_bytes (l : Bytes) : Init (l.map byteVal) := by
  intro v hv t
  obtain ⟨b, _, rfl⟩ := List.mem_map.mp hv
  simp [byteVal]

theorem bytes_cells (l : Bytes) : ByteCells (l.map byteVal) := by
  intro c hc b
  obtain ⟨a, _, rfl⟩ := List.mem_map.mp hc
  simp only [byteVal, assign, Ty.conv]
  congr 2
  have := b.isLt
  omega

theorem uninit_cells (n : Nat) : ByteCells (List.replicate n (.uninit (some .u8))) := by
  intro c hc b
  rw [List.eq_of_mem_replicate hc]
  simp only [byteVal, assign, Ty.conv]
  congr 2
  have := b.isLt
  omega

/-- Read bytes. -/
theorem loads_bytes {m : Mem ω} {fr : Option Nat} {o : String} {l : Bytes} (hg : getObj m fr o = some (l.map byteVal)) {off n : Nat} (h : off + n ≤ l.length) :
    loads ⟨fr, o, off⟩ n m = .ok (((l.drop off).take n).map byteVal, m) := by
  rw [loads_cells m fr o _ hg (init_bytes l) n off (by simpa using h)]
  simp

/-- Write bytes. -/
theorem stores_bytes {m : Mem ω} {fr : Option Nat} {o : String} {l : Bytes} (hg : getObj m fr o = some (l.map byteVal)) {off : Nat} {v r : Bytes}
    (h : blit l off v = some r) : stores ⟨fr, o, off⟩ (v.map byteVal) m = .ok ((), putObj m fr o (r.map byteVal)) := by
  unfold blit at h
  split at h
  · next hl =>
    injection h with h
    subst h
    rw [stores_cells fr o v m _ hg (bytes_cells l) off (by simpa using hl)]
    simp
  · cases h

@[csem] theorem stores_nil (r : Ref) (m : Mem ω) : stores r [] m = .ok ((), m) := (rfl)
@[csem] theorem stores_cons (r : Ref) (v : Val) (l : List Val) (m : Mem ω) : stores r (v :: l) m =
    andThen (storeRef r v m) fun _ => stores { r with off := r.off + 1 } l := (rfl)

variable (H : Host ω) (L k : Nat)

@[csem] theorem call_memset (d : Ref) (t t' : Ty) (v n : Int) (m : Mem ω) : call H Src.prog L (k + 1) "memset" [.ptr d, .int t v, .int t' n] m =
    andThen (stores d (List.replicate n.toNat (.int .u8 (v % 256))) m) fun _ => M.pure (.ptr d) := by
  rw [call_lib H find_memset]
  rfl

@[csem] theorem call_memcpy (d s : Ref) (t : Ty) (n : Int) (m : Mem ω) : call H Src.prog L (k + 1) "memcpy" [.ptr d, .ptr s, .int t n] m =
    andThen (loads s n.toNat m) fun l => M.bind (stores d l) fun _ => M.pure (.ptr d) := by
  rw [call_lib H find_memcpy]
  rfl

@[csem] theorem call_memcmp (a b : Ref) (t : Ty) (n : Int) (m : Mem ω) : call H Src.prog L (k + 1) "memcmp" [.ptr a, .ptr b, .int t n] m =
    andThen (loads a n.toNat m) fun l => M.bind (loads b n.toNat) fun k => M.pure (.int .i32 (if l = k then 0 else 1)) := by
  rw [call_lib H find_memcmp]
  rfl

end
end Uwan.C
