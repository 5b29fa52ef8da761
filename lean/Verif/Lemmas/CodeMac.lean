import Verif.Lemmas.CodeCflist

/-! # The answer queue of `mac.c` -/

namespace Uwan.C

/-- Cells of `mac_buf` used by an answer of `n` bytes. -/
def Extra.eat (x : Extra) (n : Nat) : Extra := if n ≤ x.macTail.length then { x with macTail := x.macTail.drop n } else x

section
variable {ω : Type} (H : Host ω) (L k : Nat) (s : St) (x : Extra) (fs : List Objs) (w : ω) (t t' : Ty)

theorem put_mac_pos (l r : Bytes) (h : s.mac.queue ++ x.macTail = l ++ r) (n : Int) (hn : n = l.length) :
    (enc s x).put "mac_buf_pos" [.int .u8 n] = enc { s with mac := { s.mac with queue := l } } { x with macTail := r } := by
  subst hn
  have e : enc { s with mac := { s.mac with queue := l } } { x with macTail := r } =
      ((enc s x).put "mac_buf" ((l ++ r).map byteVal)).put "mac_buf_pos" [.int .u8 l.length] := rfl
  rw [e, ← h]
  rfl

theorem put_mac_buf (l r : Bytes) (h : l.length = s.mac.queue.length) :
    (enc s x).put "mac_buf" ((l ++ r).map byteVal) = enc { s with mac := { s.mac with queue := l } } { x with macTail := r } := by
  have e : enc { s with mac := { s.mac with queue := l } } { x with macTail := r } =
      ((enc s x).put "mac_buf" ((l ++ r).map byteVal)).put "mac_buf_pos" [.int .u8 l.length] := rfl
  rw [e, h]
  rfl

theorem enqueue_room (cid : Byte) (data : Bytes) (h : s.mac.queue.length + x.macTail.length = 15) (hd : 1 + data.length ≤ x.macTail.length) :
    s.enqueue cid data = (true, { s with mac := { s.mac with queue := s.mac.queue ++ cid :: data } }) := by
  unfold St.enqueue macEnqueue
  have : (15 - BitVec.ofNat 8 s.mac.queue.length : Byte).toNat = x.macTail.length := by
    rw [BitVec.toNat_sub, BitVec.toNat_ofNat]
    have : (15 : Byte).toNat = 15 := rfl
    omega
  simp only [this]
  rw [if_neg (by omega)]

theorem enqueue_full (cid : Byte) (data : Bytes) (h : s.mac.queue.length + x.macTail.length = 15) (hd : ¬ 1 + data.length ≤ x.macTail.length) :
    s.enqueue cid data = (false, s) := by
  unfold St.enqueue macEnqueue
  have : (15 - BitVec.ofNat 8 s.mac.queue.length : Byte).toNat = x.macTail.length := by
    rw [BitVec.toNat_sub, BitVec.toNat_ofNat]
    have : (15 : Byte).toNat = 15 := rfl
    omega
  simp only [this]
  rw [if_pos (by omega)]

theorem enqueue_fits (cid : Byte) (data : Bytes) (h : s.mac.queue.length + x.macTail.length = 15) :
    (s.enqueue cid data).2.mac.queue.length + (x.eat (1 + data.length)).macTail.length = 15 := by
  unfold Extra.eat
  by_cases hd : 1 + data.length ≤ x.macTail.length
  · rw [enqueue_room s x cid data h hd, if_pos hd]
    simp
    omega
  · rw [enqueue_full s x cid data h hd, if_neg hd]
    exact h

/-- The bytes behind the pointer given to `mac_enqueue`. -/
def Behind (fs : List Objs) (w : ω) (v : Val) (data : Bytes) : Prop :=
  (data = [] ∧ v = .null) ∨ ∃ r, v = .ptr r ∧ ∀ g f, loads r data.length ⟨g, f :: fs, w⟩ = .ok (data.map byteVal, ⟨g, f :: fs, w⟩)

theorem set_mac_cell (m : Mem ω) (l : Bytes) (a b : Byte) (r : Bytes) (n : Int) (hn : n = l.length) (o : String) (v : Int) (hv : (b.toNat : Int) = v) :
    setCell m none o n (.int .u8 v) (some ((l ++ a :: r).map byteVal)) = .ok (.int .u8 v, putObj m none o ((l ++ b :: r).map byteVal)) := by
  subst hn
  subst hv
  rw [setCell_of (old := byteVal a) (by omega) (by simp)]
  unfold setTo
  have := b.isLt
  crun []
  congr 3
  simp [byteVal]

theorem stores_mac_tail (data : Bytes) (h : data.length ≤ x.macTail.length) (n : Int) (hn : n = s.mac.queue.length) :
    stores ⟨none, "mac_buf", n⟩ (data.map byteVal) ⟨enc s x, fs, w⟩ = .ok ((), ⟨enc s { x with macTail := data ++ x.macTail.drop data.length }, fs, w⟩) := by
  subst hn
  have hbl : blit (s.mac.queue ++ x.macTail) s.mac.queue.length data = some (s.mac.queue ++ (data ++ x.macTail.drop data.length)) := by
    unfold blit
    rw [if_pos (by simp; omega), List.take_left, List.append_assoc]
    congr 3
    rw [← List.drop_drop, List.drop_left]
  rw [stores_bytes (m := ⟨enc s x, fs, w⟩) (fr := none) (o := "mac_buf") (get_mac_buf s x) hbl, putObj_glob, put_mac_buf s x _ _ rfl]

theorem run_mac_enqueue (cid : Int) (hc0 : 0 ≤ cid) (hc1 : cid < 256) (data : Bytes) (v : Val) (n : Int) (hn : n = data.length) (hs : data.length < 256) (hd : Behind fs w v data)
    (h : s.mac.queue.length + x.macTail.length = 15) :
    call H Src.prog L (k + 2) "mac_enqueue" [.int t cid, v, .int t' n] ⟨enc s x, fs, w⟩ =
    .ok (boolVal (s.enqueue (BitVec.ofInt 8 cid) data).1, ⟨enc (s.enqueue (BitVec.ofInt 8 cid) data).2 (x.eat (1 + data.length)), fs, w⟩) := by
  subst hn
  have ha : assign (.uninit none) v = .ok v := by
    rcases hd with ⟨_, rfl⟩ | ⟨r, rfl, _⟩ <;> rfl
  rw [call_fun H find_mac_enqueue]
  unfold Src.mac_enqueue Extra.eat
  by_cases hr : 1 + data.length ≤ x.macTail.length
  · rw [enqueue_room s x _ data h hr, if_pos hr]
    obtain ⟨t0, tl, ht⟩ : ∃ t0 tl, x.macTail = t0 :: tl := by
      cases h : x.macTail with
      | nil => simp [h] at hr
      | cons a l => exact ⟨a, l, rfl⟩
    have hl : x.macTail.length = tl.length + 1 := by rw [ht]; rfl
    have hp1 := put_mac_pos s x (s.mac.queue ++ [t0]) tl (by rw [ht]; simp) (s.mac.queue.length + 1) (by simp)
    have hc := fun (m : Mem ω) => set_mac_cell m s.mac.queue t0 (BitVec.ofInt 8 cid) tl s.mac.queue.length rfl "mac_buf" cid (by rw [BitVec.toNat_ofInt]; omega)
    have hb1 := put_mac_buf { s with mac := { s.mac with queue := s.mac.queue ++ [t0] } } { x with macTail := tl } (s.mac.queue ++ [BitVec.ofInt 8 cid]) tl (by simp)
    have he : (s.mac.queue ++ [t0] ++ tl) = s.mac.queue ++ t0 :: tl := by simp
    have he2 : (s.mac.queue ++ [BitVec.ofInt 8 cid] ++ tl) = s.mac.queue ++ BitVec.ofInt 8 cid :: tl := by simp
    rw [he2] at hb1
    by_cases hz : data = []
    · subst hz
      crun [ha, hp1, hc, hb1, he, List.length_nil, Int.natCast_zero]
      simp [ht]
    · rcases hd with ⟨h0, _⟩ | ⟨r, rfl, hd⟩
      · exact absurd h0 hz
      have hpos : 0 < data.length := List.length_pos_iff.mpr hz
      have hst := fun f => stores_mac_tail { s with mac := { s.mac with queue := s.mac.queue ++ [BitVec.ofInt 8 cid] } } { x with macTail := tl } (f :: fs) w data
        (by show data.length ≤ tl.length; omega) ((s.mac.queue.length : Int) + 1) (by simp)
      have hp2 := put_mac_pos { s with mac := { s.mac with queue := s.mac.queue ++ [BitVec.ofInt 8 cid] } } { x with macTail := data ++ tl.drop data.length }
        (s.mac.queue ++ BitVec.ofInt 8 cid :: data) (tl.drop data.length) (by simp) (s.mac.queue.length + 1 + data.length) (by simp; omega)
      have hq : ((s.mac.queue ++ [BitVec.ofInt 8 cid]).length : Int) = (s.mac.queue.length : Int) + 1 := by simp
      crun [ha, hp1, hc, hb1, he, hq, hd, hst, hp2]
      simp [ht, Nat.add_comm 1]
  · rw [enqueue_full s x _ data h hr, if_neg hr]
    crun [ha]

/-! ## Small functions -/

theorem run_utils_gps_to_unix (t : Ty) (n : U32) : call H Src.prog L (k + 1) "utils_gps_to_unix" [.int t n.toNat] ⟨enc s x, fs, w⟩ = .ok (u32Val (gpsToUnix n), ⟨enc s x, fs, w⟩) := by
  rw [call_fun H find_utils_gps_to_unix]
  unfold Src.utils_gps_to_unix gpsToUnix
  have h1 : ((n + 315964800).toNat : Int) = ((n.toNat : Int) + 315964800) % 4294967296 := by
    rw [BitVec.toNat_add]
    have : (315964800 : U32).toNat = 315964800 := rfl
    omega
  have h2 : ((n + 315964800 - 18).toNat : Int) = (((n.toNat : Int) + 315964800) % 4294967296 - 18) % 4294967296 := by
    rw [← h1, BitVec.toNat_sub]
    have : (18 : U32).toNat = 18 := rfl
    omega
  crun [h2]

theorem run_utils_unix_to_gps (t : Ty) (n : U32) : call H Src.prog L (k + 1) "utils_unix_to_gps" [.int t n.toNat] ⟨enc s x, fs, w⟩ = .ok (u32Val (unixToGps n), ⟨enc s x, fs, w⟩) := by
  rw [call_fun H find_utils_unix_to_gps]
  unfold Src.utils_unix_to_gps unixToGps
  have h1 : ((n - 315964800).toNat : Int) = ((n.toNat : Int) - 315964800) % 4294967296 := by
    rw [BitVec.toNat_sub]
    have : (315964800 : U32).toNat = 315964800 := rfl
    omega
  have h2 : ((n - 315964800 + 18).toNat : Int) = (((n.toNat : Int) - 315964800) % 4294967296 + 18) % 4294967296 := by
    rw [← h1, BitVec.toNat_add]
    have : (18 : U32).toNat = 18 := rfl
    omega
  crun [h2]

theorem run_mac_get_payload_size (h : s.mac.queue.length < 256) :
    call H Src.prog L (k + 1) "mac_get_payload_size" [] ⟨enc s x, fs, w⟩ = .ok (.int .u8 s.mac.queue.length, ⟨enc s x, fs, w⟩) := by
  rw [call_fun H find_mac_get_payload_size]
  unfold Src.mac_get_payload_size
  crun []

theorem run_mac_init : call H Src.prog L (k + 1) "mac_init" [] ⟨enc s x, fs, w⟩ =
    .ok (.null, ⟨enc { s with mac := macInit s.mac } { x with macTail := s.mac.queue ++ x.macTail }, fs, w⟩) := by
  rw [call_fun H find_mac_init]
  unfold Src.mac_init macInit
  have hp := put_mac_pos s x [] (s.mac.queue ++ x.macTail) rfl 0 rfl
  crun [hp]

theorem behind_null : Behind fs w .null [] := .inl ⟨rfl, rfl⟩

theorem run_uwan_mac_link_check_req (h : s.mac.queue.length + x.macTail.length = 15) : call H Src.prog L (k + 3) "uwan_mac_link_check_req" [] ⟨enc s x, fs, w⟩ =
    .ok (boolVal (s.enqueue 0x02 []).1, ⟨enc (s.enqueue 0x02 []).2 (x.eat 1), fs, w⟩) := by
  rw [call_fun H find_uwan_mac_link_check_req]
  unfold Src.uwan_mac_link_check_req
  have he := fun fs t => run_mac_enqueue H L k s x fs w t t 2 (by omega) (by omega) [] .null 0 rfl (by decide) (behind_null fs w) h
  crun [he]
  rfl

theorem run_uwan_mac_device_time_req (h : s.mac.queue.length + x.macTail.length = 15) : call H Src.prog L (k + 3) "uwan_mac_device_time_req" [] ⟨enc s x, fs, w⟩ =
    .ok (boolVal (macDeviceTimeReq s.mac).1, ⟨enc { s with mac := (macDeviceTimeReq s.mac).2 } (x.eat 1), fs, w⟩) := by
  rw [call_fun H find_uwan_mac_device_time_req]
  unfold Src.uwan_mac_device_time_req
  have he := fun fs t => run_mac_enqueue H L k s x fs w t t 13 (by omega) (by omega) [] .null 0 rfl (by decide) (behind_null fs w) h
  crun [he]
  rfl

theorem stores_frame (off : Int) (v fr : Bytes) (h0 : 0 ≤ off) (h : blit s.frame off.toNat v = some fr) : stores ⟨none, "uw_frame", off⟩ (v.map byteVal) ⟨enc s x, fs, w⟩ =
    .ok ((), ⟨enc { s with frame := fr } x, fs, w⟩) := by
  obtain ⟨n, rfl⟩ := Int.eq_ofNat_of_zero_le h0
  rw [Int.toNat_natCast] at h
  exact stores_bytes (m := ⟨enc s x, fs, w⟩) (fr := none) (o := "uw_frame") rfl h

theorem run_mac_get_payload (off : Int) (h0 : 0 ≤ off) (n : Nat) (hn : n < 256) (fr : Bytes) (h : blit s.frame off.toNat (macGetPayload s.mac n).1 = some fr) (hq : s.mac.queue.length < 256) :
    call H Src.prog L (k + 2) "mac_get_payload" [.ptr ⟨none, "uw_frame", off⟩, .int t n] ⟨enc s x, fs, w⟩ =
    .ok (.int .u8 (macGetPayload s.mac n).1.length, ⟨enc { s with mac := (macGetPayload s.mac n).2, frame := fr }
      (if s.mac.queue.length ≤ n then { x with macTail := s.mac.queue ++ x.macTail } else x), fs, w⟩) := by
  rw [call_fun H find_mac_get_payload]
  unfold Src.mac_get_payload
  unfold macGetPayload at h ⊢
  by_cases hl : s.mac.queue.length ≤ n
  · simp only [hl, if_true] at h ⊢
    have h1 := fun f => loads_bytes (m := ⟨enc s x, f :: fs, w⟩) (fr := none) (o := "mac_buf") (l := s.mac.queue ++ x.macTail) (off := 0) (n := s.mac.queue.length) rfl (by simp)
    simp only [List.drop_zero, List.take_left, Int.natCast_zero] at h1
    have h2 := fun f => stores_frame s x (f :: fs) w off s.mac.queue fr h0 h
    have hp := put_mac_pos { s with frame := fr } x [] (s.mac.queue ++ x.macTail) rfl 0 rfl
    crun [h1, h2, hp]
  · simp only [hl, if_false] at h ⊢
    have hf : s.frame = fr := by
      unfold blit at h
      split at h
      · injection h with h
        simpa using h
      · cases h
    subst hf
    crun []
    rfl

end

end Uwan.C
