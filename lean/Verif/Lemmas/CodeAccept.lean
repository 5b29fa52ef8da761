import Verif.Lemmas.CodeUplink

/-! # handle_join_msg -/

namespace Uwan.C

/-- The local variables of `handle_downlink`; `d` is `pkt.data`, `n` is `pkt.size`. -/
abbrev pktVars (e mt snr rssi : Val) (port n : Int) (d : Val) : Objs :=
  [("mtype", [mt]), ("pkt.snr", [snr]), ("pkt.rssi", [rssi]), ("pkt.f_port", [.int .u8 port]), ("pkt.size", [.int .u8 n]), ("pkt.data", [d]), ("err", [e])]

/-- The received packet starts at the beginning of the frame buffer. -/
abbrev frameStart : Val := .ptr ⟨none, "uw_frame", 0⟩

/-- The local variables of `handle_join_msg` up to the MIC check. -/
abbrev acceptVars (fs : List Objs) (c : Bool) (o : Int) (mic : List Val) (h : Val) : Objs :=
  [("cflist", [boolVal c]), ("offset", [.int .u8 o]), ("mic", mic), ("mhdr", [h]), ("buf", [frameStart]), ("pkt", [.ptr ⟨some fs.length, "pkt", 0⟩])]

section
variable (I : Input) (L k : Nat) (s : St) (x : Extra) (fs : List Objs) (w : World) (e mt snr rssi : Val) (port n : Int)

/-- `handle_join_msg`: a wrong length. -/
theorem accept_length (h1 : n ≠ 17) (h2 : n ≠ 33) : ∃ f', exec ⟨host I, call (host I) Src.prog L (k + 4), L⟩ (Src.handle_join_msg.body.upTo 8)
      ⟨enc s x, [("pkt", [.ptr ⟨some fs.length, "pkt", 0⟩])] :: pktVars e mt snr rssi port n frameStart :: fs, w⟩ =
    .ok (.ret (some (.int .i32 7)), ⟨enc s x, f' :: pktVars e mt snr rssi port n frameStart :: fs, w⟩) := by
  unfold Src.handle_join_msg pktVars
  refine ⟨[("cflist", [.uninit (some .bool)]), ("offset", [.int .u8 0]), ("mic", List.replicate 4 (.uninit (some .u8))), ("mhdr", [.uninit (some .u8)]), ("buf", [frameStart]), ("pkt", [.ptr ⟨some fs.length, "pkt", 0⟩])], ?_⟩
  crun [Stmt.upTo, getObj_top2, putObj_top2, getObj_below, h1, h2]

/-- `handle_join_msg`: a length that is right. -/
theorem accept_sized (c : Bool) (hn : n = if c then 33 else 17) : exec ⟨host I, call (host I) Src.prog L (k + 4), L⟩ (Src.handle_join_msg.body.upTo 8)
      ⟨enc s x, [("pkt", [.ptr ⟨some fs.length, "pkt", 0⟩])] :: pktVars e mt snr rssi port n frameStart :: fs, w⟩ =
    .ok (.next, ⟨enc s x, acceptVars fs c 0 (List.replicate 4 (.uninit (some .u8))) (.uninit (some .u8)) :: pktVars e mt snr rssi port n frameStart :: fs, w⟩) := by
  unfold Src.handle_join_msg pktVars acceptVars
  subst hn
  cases c <;> crun [Stmt.upTo, getObj_top2, putObj_top2, getObj_below]

theorem accept_other (c : Bool) (mic : List Val) (hfr : s.frame.length = 255) (hb : (byteAt s.frame 0).toNat ≠ 32) :
    exec ⟨host I, call (host I) Src.prog L (k + 4), L⟩ ((Src.handle_join_msg.body.after 8).upTo 2) ⟨enc s x, acceptVars fs c 0 mic (.uninit (some .u8)) :: pktVars e mt snr rssi port n frameStart :: fs, w⟩ =
    .ok (.ret (some (.int .i32 8)), ⟨enc s x, acceptVars fs c 1 mic (.int .u8 (byteAt s.frame 0).toNat) :: pktVars e mt snr rssi port n frameStart :: fs, w⟩) := by
  unfold Src.handle_join_msg pktVars acceptVars
  have hs : ∀ m : Mem World, shift (host I) .shl .i32 1 5 m = .ok (.int .i32 32, m) := fun m => rfl
  have hs0 : ∀ m : Mem World, shift (host I) .shl .i32 0 0 m = .ok (.int .i32 0, m) := fun m => rfl
  have ho : ofBits Ty.i32 (bits 32 ||| bits 0) = 32 := by decide
  have hb' : ((byteAt s.frame 0).toNat : Int) ≠ 32 := by omega
  have hlt := (byteAt s.frame 0).isLt
  crun [Stmt.upTo, Stmt.after, getObj_top2, putObj_top2, getObj_below, hs, hs0, ho, hb']

theorem accept_header (c : Bool) (mic : List Val) (hfr : s.frame.length = 255) (hb : byteAt s.frame 0 = 32) :
    exec ⟨host I, call (host I) Src.prog L (k + 4), L⟩ ((Src.handle_join_msg.body.after 8).upTo 2) ⟨enc s x, acceptVars fs c 0 mic (.uninit (some .u8)) :: pktVars e mt snr rssi port n frameStart :: fs, w⟩ =
    .ok (.next, ⟨enc s x, acceptVars fs c 1 mic (.int .u8 32) :: pktVars e mt snr rssi port n frameStart :: fs, w⟩) := by
  unfold Src.handle_join_msg pktVars acceptVars
  have hs : ∀ m : Mem World, shift (host I) .shl .i32 1 5 m = .ok (.int .i32 32, m) := fun m => rfl
  have hs0 : ∀ m : Mem World, shift (host I) .shl .i32 0 0 m = .ok (.int .i32 0, m) := fun m => rfl
  have ho : ofBits Ty.i32 (bits 32 ||| bits 0) = 32 := by decide
  have hb' : ((32 : Byte).toNat : Int) = 32 := rfl
  crun [Stmt.upTo, Stmt.after, getObj_top2, putObj_top2, getObj_below, hs, hs0, ho, hb, hb']

/-- Sixteen bytes of the frame. -/
theorem frame_block {ω : Type} (w : ω) (pre : Bytes) (b : Block) (post : Bytes) (hf : s.frame = pre ++ b.toList ++ post) :
    loads ⟨none, "uw_frame", pre.length⟩ 16 (⟨enc s x, fs, w⟩ : Mem ω) = .ok (b.toList.map byteVal, ⟨enc s x, fs, w⟩) := by
  have := loads_bytes (m := (⟨enc s x, fs, w⟩ : Mem ω)) (fr := none) (o := "uw_frame") (l := s.frame) (off := pre.length) (n := 16) rfl (by rw [hf]; simp)
  rw [this, hf, List.append_assoc, List.drop_left, List.take_append_of_le_length (by simp), List.take_of_length_le (by simp)]

theorem put_block (pre : Bytes) (b c : Block) (post : Bytes) : putAt (pre ++ b.toList ++ post) pre.length c.toList = pre ++ c.toList ++ post := by
  have hlen : pre.length + c.toList.length = (pre ++ b.toList).length := by simp
  have : blit (pre ++ b.toList ++ post) pre.length c.toList = some (pre ++ c.toList ++ post) := by
    unfold blit
    rw [if_pos (by simp), hlen, List.drop_left, List.append_assoc pre b.toList, List.take_left]
  unfold putAt
  rw [this]
  rfl

theorem accept_decrypt (mic : List Val) (h : Val) (hr : s.region.isSome = true) (hfr : s.frame.length = 255) (m : Byte) (b1 : Block) (post : Bytes) (hf : s.frame = [m] ++ b1.toList ++ post) :
    exec ⟨host I, call (host I) Src.prog L (k + 4), L⟩ (((Src.handle_join_msg.body.after 8).after 2).upTo 5) ⟨enc s x, acceptVars fs false 1 mic h :: pktVars e mt snr rssi port n frameStart :: fs, w⟩ =
    .ok (.next, ⟨enc { s with frame := [m] ++ (I.env.aes s.appKey b1).toList ++ post } x, (("ctx", [.opaque (keyInts s.appKey)]) :: acceptVars fs false 1 mic h) :: pktVars e mt snr rssi port n frameStart :: fs,
      w.did w.cmac [.aesNew s.appKey, .aesEncrypt b1, .aesDel]⟩) := by
  unfold Src.handle_join_msg pktVars acceptVars
  have hl : ∀ fs (w : World), loads ⟨none, "uw_frame", 1⟩ 16 (⟨enc s x, fs, w⟩ : Mem World) = .ok (b1.toList.map byteVal, ⟨enc s x, fs, w⟩) := fun fs (w : World) => frame_block s x fs w [m] b1 post hf
  have hp : putAt ([m] ++ b1.toList ++ post) 1 (I.env.aes s.appKey b1).toList = _ := put_block [m] b1 (I.env.aes s.appKey b1) post
  rw [← hf] at hp
  have hv : (I.env.aes s.appKey b1).toList.length = 16 := by simp
  crun [Stmt.upTo, Stmt.after, getObj_top2, putObj_top2, getObj_below, hr, hl, hp]
  simp [World.did, World.say]

theorem accept_decrypt2 (mic : List Val) (h : Val) (hr : s.region.isSome = true) (hfr : s.frame.length = 255) (m : Byte) (b1 b2 : Block) (post : Bytes) (hf : s.frame = [m] ++ b1.toList ++ (b2.toList ++ post)) :
    exec ⟨host I, call (host I) Src.prog L (k + 4), L⟩ (((Src.handle_join_msg.body.after 8).after 2).upTo 5) ⟨enc s x, acceptVars fs true 1 mic h :: pktVars e mt snr rssi port n frameStart :: fs, w⟩ =
    .ok (.next, ⟨enc { s with frame := [m] ++ (I.env.aes s.appKey b1).toList ++ (I.env.aes s.appKey b2).toList ++ post } x,
      (("ctx", [.opaque (keyInts s.appKey)]) :: acceptVars fs true 1 mic h) :: pktVars e mt snr rssi port n frameStart :: fs,
      w.did w.cmac [.aesNew s.appKey, .aesEncrypt b1, .aesEncrypt b2, .aesDel]⟩) := by
  unfold Src.handle_join_msg pktVars acceptVars
  have hl : ∀ fs (w : World), loads ⟨none, "uw_frame", 1⟩ 16 (⟨enc s x, fs, w⟩ : Mem World) = .ok (b1.toList.map byteVal, ⟨enc s x, fs, w⟩) := fun fs (w : World) => frame_block s x fs w [m] b1 _ hf
  have hp : putAt ([m] ++ b1.toList ++ (b2.toList ++ post)) 1 (I.env.aes s.appKey b1).toList = _ := put_block [m] b1 (I.env.aes s.appKey b1) _
  rw [← hf, ← List.append_assoc] at hp
  obtain ⟨c1, hc1⟩ : ∃ c, c = I.env.aes s.appKey b1 := ⟨_, rfl⟩
  rw [← hc1] at hp ⊢
  have hv1 : c1.toList.length = 16 := by simp
  have hv2 : (I.env.aes s.appKey b2).toList.length = 16 := by simp
  have hpre : ([m] ++ c1.toList).length = 17 := by simp
  have hl2 : ∀ fs (w : World), loads ⟨none, "uw_frame", 17⟩ 16 (⟨enc { s with frame := [m] ++ c1.toList ++ b2.toList ++ post } x, fs, w⟩ : Mem World) =
      .ok (b2.toList.map byteVal, ⟨enc { s with frame := [m] ++ c1.toList ++ b2.toList ++ post } x, fs, w⟩) := by
    intro fs w
    have := frame_block { s with frame := [m] ++ c1.toList ++ b2.toList ++ post } x fs w ([m] ++ c1.toList) b2 post rfl
    rw [hpre] at this
    exact this
  have hp2 := put_block ([m] ++ c1.toList) b2 (I.env.aes s.appKey b2) post
  rw [hpre] at hp2
  obtain ⟨f1, hf1⟩ : ∃ f, f = [m] ++ c1.toList ++ b2.toList ++ post := ⟨_, rfl⟩
  rw [← hf1] at hp hl2 hp2
  have l1 : f1.length = 255 := by
    have : s.frame.length = f1.length := by rw [hf, hf1]; simp
    omega
  crun [Stmt.upTo, Stmt.after, getObj_top2, putObj_top2, getObj_below, hr, hl, hp, ← hc1, hl2, hp2]
  simp [World.did, World.say]

/-- The beginning of the received packet. -/
theorem over_front {ω : Type} (w : ω) (fr buf : Bytes) (hf : s.frame = over fr buf) (hb : buf.length ≤ fr.length) (j : Nat) (hj : j ≤ buf.length) :
    loads ⟨none, "uw_frame", 0⟩ j (⟨enc s x, fs, w⟩ : Mem ω) = .ok ((buf.take j).map byteVal, ⟨enc s x, fs, w⟩) := by
  have := loads_bytes (m := (⟨enc s x, fs, w⟩ : Mem ω)) (fr := none) (o := "uw_frame") (l := s.frame) (off := 0) (n := j) rfl (by rw [hf, over_length _ _ hb]; omega)
  rw [hf, List.drop_zero] at this
  have ht : (over fr buf).take j = buf.take j := by unfold over; rw [List.take_append_of_le_length hj]
  rw [ht] at this
  exact this

/-- The end of the received packet. -/
theorem over_back {ω : Type} (w : ω) (fr buf : Bytes) (hf : s.frame = over fr buf) (hb : buf.length ≤ fr.length) (j : Nat) (hj : j + 4 = buf.length) :
    loads ⟨none, "uw_frame", j⟩ 4 (⟨enc s x, fs, w⟩ : Mem ω) = .ok ((buf.drop j).map byteVal, ⟨enc s x, fs, w⟩) := by
  have := loads_bytes (m := (⟨enc s x, fs, w⟩ : Mem ω)) (fr := none) (o := "uw_frame") (l := s.frame) (off := j) (n := 4) rfl (by rw [hf, over_length _ _ hb]; omega)
  rw [hf] at this
  have ht : ((over fr buf).drop j).take 4 = buf.drop j := by
    unfold over
    rw [List.drop_append_of_le_length (by omega), List.take_append_of_le_length (by rw [List.length_drop]; omega), List.take_of_length_le (by rw [List.length_drop]; omega)]
  rw [ht] at this
  exact this

/-- Four bytes into a local array of the caller. -/
theorem stores_four (g f' f : Objs) (o : String) (v : Bytes) (hv : v.length = 4) (ho : f.get o = some (List.replicate 4 (.uninit (some .u8)))) :
    stores ⟨some fs.length, o, 0⟩ (v.map byteVal) (⟨g, f' :: f :: fs, w⟩ : Mem World) = .ok ((), ⟨g, f' :: f.put o (v.map byteVal) :: fs, w⟩) := by
  have := stores_cells (some fs.length) o v (⟨g, f' :: f :: fs, w⟩ : Mem World) (List.replicate 4 (.uninit (some .u8))) (by rw [getObj_below]; exact ho) (uninit_cells _) 0 (by simp [hv])
  rw [putObj_below] at this
  rw [List.take_zero, List.nil_append, List.drop_of_length_le (by simp [hv]), List.append_nil] at this
  exact this

theorem ptr_sub {ω : Type} (H : Host ω) (r : Ref) (t : Ty) (y : Int) (m : Mem ω) : binop H .sub (.ptr r) (.int t y) m = .ok (.ptr { r with off := r.off - y }, m) := rfl

theorem accept_mic (c : Bool) (h ctx : Val) (hr : s.region.isSome = true) (fr buf : Bytes) (hf : s.frame = over fr buf) (hl : fr.length = 255) (hb : buf.length = if c then 33 else 17) :
    ∃ q, exec ⟨host I, call (host I) Src.prog L (k + 4), L⟩ ((((Src.handle_join_msg.body.after 8).after 2).after 5).upTo 2)
      ⟨enc s x, (("ctx", [ctx]) :: acceptVars fs c 1 (List.replicate 4 (.uninit (some .u8))) h) :: pktVars e mt snr rssi port buf.length frameStart :: fs, w⟩ =
    .ok (if buf.drop (buf.length - 4) = (calcMic I.env s.session (buf.take (buf.length - 4)) s.appKey 0 false).1 then .next else .ret (some (.int .i32 9)),
      ⟨enc s x, (("ctx", [ctx]) :: acceptVars fs c 1 ((calcMic I.env s.session (buf.take (buf.length - 4)) s.appKey 0 false).1.map byteVal) h) :: pktVars e mt snr rssi port buf.length frameStart :: fs,
        w.did q (calcMic I.env s.session (buf.take (buf.length - 4)) s.appKey 0 false).2⟩) := by
  have hml := mic_length I.env s.session (buf.take (buf.length - 4)) s.appKey 0 false
  obtain ⟨q, hq⟩ := run_calc_mic I L (k + 2) s x ((("ctx", [ctx]) :: acceptVars fs c 1 (List.replicate 4 (.uninit (some .u8))) h) :: pktVars e mt snr rssi port buf.length frameStart :: fs) w hr (enc s x)
    ((("ctx", [ctx]) :: acceptVars fs c 1 ((calcMic I.env s.session (buf.take (buf.length - 4)) s.appKey 0 false).1.map byteVal) h) :: pktVars e mt snr rssi port buf.length frameStart :: fs)
    ⟨some (fs.length + 1), "mic", 0⟩ ⟨none, "uw_frame", 0⟩ ⟨none, "uw_app_key", 0⟩ (buf.take (buf.length - 4)) (by rw [List.length_take]; cases c <;> simp at hb <;> omega) s.appKey 0 false .u32 .i32
    (fun f w => loads_app_key s x _ w) (fun f w => by
      have := over_front s x (f :: (("ctx", [ctx]) :: acceptVars fs c 1 (List.replicate 4 (.uninit (some .u8))) h) :: pktVars e mt snr rssi port buf.length frameStart :: fs) w fr buf hf (by cases c <;> simp at hb <;> omega) (buf.length - 4) (by omega)
      rw [List.length_take, Nat.min_eq_left (by omega)]
      exact this)
    (fun f w => stores_four (pktVars e mt snr rssi port buf.length frameStart :: fs) w _ f _ "mic" _ hml rfl)
  refine ⟨q, ?_⟩
  rw [← mic_flag, List.length_take, Nat.min_eq_left (by omega)] at hq
  generalize calcMic I.env s.session (buf.take (buf.length - 4)) s.appKey 0 false = mic at hml hq ⊢
  have hbk := fun fs (w : World) => over_back s x fs w fr buf hf (by cases c <;> simp at hb <;> omega) (buf.length - 4) (by cases c <;> simp at hb <;> omega)
  have hm : ∀ g f fs w, f.get "mic" = some (mic.1.map byteVal) → loads ⟨some fs.length, "mic", 0⟩ 4 (⟨g, f :: fs, w⟩ : Mem World) = .ok (mic.1.map byteVal, ⟨g, f :: fs, w⟩) := by
    intro g f fs w h
    have := loads_bytes (m := (⟨g, f :: fs, w⟩ : Mem World)) (fr := some fs.length) (o := "mic") (l := mic.1) (off := 0) (n := 4) (by rw [getObj_top]; exact h) (by omega)
    rw [List.drop_zero, List.take_of_length_le (by omega)] at this
    exact this
  unfold Src.handle_join_msg
  have hm2 : ∀ w, loads ⟨some (fs.length + 1), "mic", 0⟩ 4 (⟨enc s x, (("ctx", [ctx]) :: acceptVars fs c 1 (mic.1.map byteVal) h) :: pktVars e mt snr rssi port buf.length frameStart :: fs, w⟩ : Mem World) = _ := fun w => hm (enc s x) (("ctx", [ctx]) :: acceptVars fs c 1 (mic.1.map byteVal) h) (pktVars e mt snr rssi port buf.length frameStart :: fs) w rfl
  generalize hbd : buf.drop (buf.length - 4) = bd at hbk ⊢
  have hiff : (bd.map byteVal = mic.1.map byteVal) = (bd = mic.1) := by
    apply propext
    exact ⟨byteVal_inj _ _, fun h => by rw [h]⟩
  obtain ⟨j, hj⟩ : ∃ j, j = buf.length - 4 := ⟨_, rfl⟩
  have hj' : (buf.length : Int) - 4 = (j : Int) := by cases c <;> simp at hb <;> omega
  have hlt : buf.length < 256 := by cases c <;> simp at hb <;> omega
  have hge : 4 ≤ buf.length := by cases c <;> simp at hb <;> omega
  rw [← hj] at hq hbk
  simp only [show ((0 : Byte).toNat : Int) = 0 from rfl, Bool.false_eq_true, if_false] at hq
  by_cases hz : bd = mic.1
  · crun [Stmt.upTo, Stmt.after, getObj_top2, putObj_top2, getObj_below, hr, hj', hq, ptr_sub, hbk, hm2, hiff, hz]
  · crun [Stmt.upTo, Stmt.after, getObj_top2, putObj_top2, getObj_below, hr, hj', hq, ptr_sub, hbk, hm2, hiff, hz]

/-- The local variables of `handle_join_msg` after the MIC check. -/
abbrev acceptLocs (fs : List Objs) (c : Bool) (o : Int) (mic : List Val) (h ctx : Val) (an ni ad : U32) : Objs :=
  [("dev_addr", [.int .u32 ad.toNat]), ("net_id", [.int .u32 ni.toNat]), ("app_nonce", [.int .u32 an.toNat]), ("ctx", [ctx]),
   ("cflist", [boolVal c]), ("offset", [.int .u8 o]), ("mic", mic), ("mhdr", [h]), ("buf", [frameStart]), ("pkt", [.ptr ⟨some fs.length, "pkt", 0⟩])]

theorem mark24 (g : Objs) (fs : List Objs) (b : Byte) : shift (host I) .shl .i32 (b.toNat : Int) 24 (⟨g, fs, w⟩ : Mem World) =
    .ok (.int .i32 (ofBits .i32 (b.setWidth 32 <<< 24)), ⟨g, fs, w.did w.cmac (shiftMark b)⟩) := by
  rw [shl24]
  unfold shiftMark
  by_cases h : 128 ≤ b.toNat
  · rw [if_pos h, if_pos h]; rfl
  · rw [if_neg h, if_neg h]; simp [World.did]

theorem accept_words (c : Bool) (mic : List Val) (h ctx : Val) (hfr : s.frame.length = 255) (n0 n1 n2 i0 i1 i2 a0 a1 a2 a3 : Byte) (b1 : byteAt s.frame 1 = n0) (b2 : byteAt s.frame 2 = n1) (b3 : byteAt s.frame 3 = n2)
    (b4 : byteAt s.frame 4 = i0) (b5 : byteAt s.frame 5 = i1) (b6 : byteAt s.frame 6 = i2) (b7 : byteAt s.frame 7 = a0) (b8 : byteAt s.frame 8 = a1) (b9 : byteAt s.frame 9 = a2) (b10 : byteAt s.frame 10 = a3) :
    exec ⟨host I, call (host I) Src.prog L (k + 4), L⟩ (((((Src.handle_join_msg.body.after 8).after 2).after 5).after 2).upTo 13)
      ⟨enc s x, (("ctx", [ctx]) :: acceptVars fs c 1 mic h) :: pktVars e mt snr rssi port n frameStart :: fs, w⟩ =
    .ok (.next, ⟨enc s x, acceptLocs fs c 11 mic h ctx (or24 n0 n1 n2) (or24 i0 i1 i2) (or32 a0 a1 a2 a3) :: pktVars e mt snr rssi port n frameStart :: fs, w.did w.cmac (shiftMark a3)⟩) := by
  unfold Src.handle_join_msg pktVars acceptVars acceptLocs
  have := n0.isLt
  have := i0.isLt
  have := a0.isLt
  crun [Stmt.upTo, Stmt.after, getObj_top2, putObj_top2, getObj_below, b1, b2, b3, b4, b5, b6, b7, b8, b9, b10, bits_byte, bits_shl, bits_ofBits_i32, or24_bits, or32_bits, conv_u32_bits, conv_u32_bits_u, operand_bits, mark24, bits_u32]
  rfl

/-- The local variables of `handle_join_msg` after the reception parameters. -/
abbrev acceptDone (fs : List Objs) (c : Bool) (mic : List Val) (h ctx : Val) (an ni ad : U32) (dly rx2 off dl : Val) : Objs :=
  ("rx1_delay", [dly]) :: ("rx2_dr", [rx2]) :: ("rx1_dr_offset", [off]) :: ("dl_settings", [dl]) :: acceptLocs fs c 13 mic h ctx an ni ad

/-- The data rates of the windows from DLSettings. -/
def joinWindows (s : St) (off rx2 : Byte) : St :=
  let s := if isValidDr off.toNat then { s with rx1Offset := off } else s
  if isValidDr rx2.toNat then { s with rx2Dr := rx2.toNat } else s

theorem accept_settings (c : Bool) (mic : List Val) (h ctx : Val) (an ni ad : U32) (hfr : s.frame.length = 255) (dl off rx2 : Byte) (b11 : byteAt s.frame 11 = dl) (ho : (dl >>> 4) &&& 7 = off) (h2 : dl &&& 0xf = rx2) :
    exec ⟨host I, call (host I) Src.prog L (k + 4), L⟩ ((((((Src.handle_join_msg.body.after 8).after 2).after 5).after 2).after 13).upTo 6)
      ⟨enc s x, acceptLocs fs c 11 mic h ctx an ni ad :: pktVars e mt snr rssi port n frameStart :: fs, w⟩ =
    .ok (.next, ⟨enc s x, (("rx2_dr", [.int .u8 rx2.toNat]) :: ("rx1_dr_offset", [.int .u8 off.toNat]) :: ("dl_settings", [.int .u8 dl.toNat]) :: acceptLocs fs c 12 mic h ctx an ni ad) ::
      pktVars e mt snr rssi port n frameStart :: fs, w⟩) := by
  unfold Src.handle_join_msg pktVars acceptLocs
  crun [Stmt.upTo, Stmt.after, getObj_top2, putObj_top2, getObj_below, b11, ho, h2, and15_conv]

theorem accept_windows (off rx2 : Byte) (f : Objs) :
    exec ⟨host I, call (host I) Src.prog L (k + 4), L⟩ (((((((Src.handle_join_msg.body.after 8).after 2).after 5).after 2).after 13).after 6).upTo 2)
      ⟨enc s x, (("rx2_dr", [.int .u8 rx2.toNat]) :: ("rx1_dr_offset", [.int .u8 off.toNat]) :: f) :: pktVars e mt snr rssi port n frameStart :: fs, w⟩ =
    .ok (.next, ⟨enc (joinWindows s off rx2) x, (("rx2_dr", [.int .u8 rx2.toNat]) :: ("rx1_dr_offset", [.int .u8 off.toNat]) :: f) :: pktVars e mt snr rssi port n frameStart :: fs, w⟩) := by
  unfold Src.handle_join_msg pktVars joinWindows
  have l1 := off.isLt
  have l2 := rx2.isLt
  cases hv1 : isValidDr off.toNat <;> cases hv2 : isValidDr rx2.toNat <;>
  · crun [Stmt.upTo, Stmt.after, getObj_top2, putObj_top2, run_is_valid_dr, hv1, hv2]

/-- The number of seconds from RxDelay. -/
def joinSecs (dly : Byte) : Byte := if dly &&& 0xf = 0 then 1 else dly &&& 0xf

theorem accept_delay (c : Bool) (mic : List Val) (h ctx : Val) (an ni ad : U32) (dl off rx2 : Byte) (hfr : s.frame.length = 255) (dly : Byte) (b12 : byteAt s.frame 12 = dly) :
    exec ⟨host I, call (host I) Src.prog L (k + 4), L⟩ ((((((((Src.handle_join_msg.body.after 8).after 2).after 5).after 2).after 13).after 6).after 2).upTo 4)
      ⟨enc s x, (("rx2_dr", [.int .u8 rx2.toNat]) :: ("rx1_dr_offset", [.int .u8 off.toNat]) :: ("dl_settings", [.int .u8 dl.toNat]) :: acceptLocs fs c 12 mic h ctx an ni ad) :: pktVars e mt snr rssi port n frameStart :: fs, w⟩ =
    .ok (.next, ⟨enc { s with defaultRx1Delay := BitVec.ofNat 32 ((joinSecs dly).toNat * 1000) } x,
      acceptDone fs c mic h ctx an ni ad (.int .u8 (joinSecs dly).toNat) (.int .u8 rx2.toNat) (.int .u8 off.toNat) (.int .u8 dl.toNat) :: pktVars e mt snr rssi port n frameStart :: fs, w⟩) := by
  unfold Src.handle_join_msg pktVars acceptLocs acceptDone joinSecs
  obtain ⟨d, hd⟩ : ∃ d, d = dly &&& 0xf := ⟨_, rfl⟩
  have h3 := d.isLt
  rw [← hd]
  have e1 : (((1 : Byte).toNat : Nat) : Int) = 1 := rfl
  have e2 : ∀ j : Nat, BitVec.ofInt 32 ((j : Int) * 1000) = BitVec.ofNat 32 (j * 1000) := by
    intro j
    rw [← BitVec.ofInt_natCast]
    simp
  by_cases hz : d = 0
  · rw [if_pos hz]
    have hz' : ((d.toNat : Nat) : Int) = 0 := by rw [hz]; rfl
    have e3 : BitVec.ofInt 32 1000 = BitVec.ofNat 32 1000 := by decide
    crun [Stmt.upTo, Stmt.after, getObj_top2, putObj_top2, getObj_below, b12, and15_conv, ← hd, hz', e1, e3]
    rfl
  · rw [if_neg hz]
    have hz' : ((d.toNat : Nat) : Int) ≠ 0 := by
      intro h; apply hz; apply BitVec.eq_of_toNat_eq; simpa using h
    crun [Stmt.upTo, Stmt.after, getObj_top2, putObj_top2, getObj_below, b12, and15_conv, ← hd, hz', e2]

theorem joinParams_eq (dl dly : Byte) : joinRxParams s dl dly = { joinWindows s ((dl >>> 4) &&& 7) (dl &&& 0xf) with defaultRx1Delay := BitVec.ofNat 32 ((joinSecs dly).toNat * 1000) } := rfl

theorem accept_channels (mic : List Val) (h ctx v1 v2 v3 v4 : Val) (an ni ad : U32) (hfr : s.frame.length = 255) (hL : 16 < L) (hm : s.chan.maxCount < 256) (r : Region) (hr : s.region = some r) :
    exec ⟨host I, call (host I) Src.prog L (k + 4), L⟩ (((((((((Src.handle_join_msg.body.after 8).after 2).after 5).after 2).after 13).after 6).after 2).after 4).upTo 1)
      ⟨enc s x, acceptDone fs true mic h ctx an ni ad v1 v2 v3 v4 :: pktVars e mt snr rssi port n frameStart :: fs, w⟩ =
    .ok (.next, ⟨enc { s with chan := if byteAt s.frame 28 = 0 then cfRounds r.cflistFirst (fun i => byteAt s.frame (13 + (i : Nat))) s.chan 5 else s.chan } x,
      acceptDone fs true mic h ctx an ni ad v1 v2 v3 v4 :: pktVars e mt snr rssi port n frameStart :: fs, w⟩) := by
  unfold Src.handle_join_msg pktVars acceptDone acceptLocs
  have h1 := fun fs w => run_eu868_handle_cflist (host I) L k s x fs w hL 13 (by omega) (by omega) hm
  have h2 := fun fs w => run_ru864_handle_cflist (host I) L k s x fs w hL 13 (by omega) (by omega) hm
  simp only [Int.reduceAdd] at h1 h2
  have v1 : regionVal (some .eu868) = .ptr ⟨none, "region_eu868", 0⟩ := rfl
  have v2 : regionVal (some .ru864) = .ptr ⟨none, "region_ru864", 0⟩ := rfl
  cases r <;> crun [Stmt.upTo, Stmt.after, getObj_top2, putObj_top2, getObj_below, hr, h1, h2, v1, v2] <;> rfl

theorem accept_no_channels (mic : List Val) (h ctx v1 v2 v3 v4 : Val) (an ni ad : U32) :
    exec ⟨host I, call (host I) Src.prog L (k + 4), L⟩ (((((((((Src.handle_join_msg.body.after 8).after 2).after 5).after 2).after 13).after 6).after 2).after 4).upTo 1)
      ⟨enc s x, acceptDone fs false mic h ctx an ni ad v1 v2 v3 v4 :: pktVars e mt snr rssi port n frameStart :: fs, w⟩ =
    .ok (.next, ⟨enc s x, acceptDone fs false mic h ctx an ni ad v1 v2 v3 v4 :: pktVars e mt snr rssi port n frameStart :: fs, w⟩) := by
  unfold Src.handle_join_msg pktVars acceptDone acceptLocs
  crun [Stmt.upTo, Stmt.after, getObj_top2, putObj_top2, getObj_below]

theorem accept_keys (c : Bool) (mic : List Val) (h ctx v1 v2 v3 v4 : Val) (an ni ad : U32) (hL : 16 < L) (hr : s.region.isSome = true) (hdr : s.defaultDr < 4294967296) :
    ∃ f', exec ⟨host I, call (host I) Src.prog L (k + 4), L⟩ (((((((((Src.handle_join_msg.body.after 8).after 2).after 5).after 2).after 13).after 6).after 2).after 4).after 1)
      ⟨enc s x, acceptDone fs c mic h ctx an ni ad v1 v2 v3 v4 :: pktVars e mt snr rssi port n frameStart :: fs, w⟩ =
    .ok (.ret (some (.int .i32 0)), ⟨enc (setSession s ad 0 0 (deriveSessionKey I.env s.appKey 1 an ni s.devNonce).1 (deriveSessionKey I.env s.appKey 2 an ni s.devNonce).1) x,
      f' :: pktVars e mt snr rssi port n frameStart :: fs, w.did w.cmac ((deriveSessionKey I.env s.appKey 1 an ni s.devNonce).2 ++ (deriveSessionKey I.env s.appKey 2 an ni s.devNonce).2)⟩) := by
  obtain ⟨k1, hk1⟩ : ∃ q, q = deriveSessionKey I.env s.appKey 1 an ni s.devNonce := ⟨_, rfl⟩
  obtain ⟨k2, hk2⟩ : ∃ q, q = deriveSessionKey I.env s.appKey 2 an ni s.devNonce := ⟨_, rfl⟩
  obtain ⟨base, hbase⟩ : ∃ b : Objs, b = ("app", [.int .u8 2]) :: ("nwk", [.int .u8 1]) :: acceptDone fs c mic h ctx an ni ad v1 v2 v3 v4 := ⟨_, rfl⟩
  obtain ⟨F0, hF0⟩ : ∃ b : Objs, b = ("app_s_key", List.replicate 16 (.uninit (some .u8))) :: ("nwk_s_key", List.replicate 16 (.uninit (some .u8))) :: base := ⟨_, rfl⟩
  obtain ⟨F1, hF1⟩ : ∃ b : Objs, b = ("app_s_key", List.replicate 16 (.uninit (some .u8))) :: ("nwk_s_key", k1.1.toList.map byteVal) :: base := ⟨_, rfl⟩
  obtain ⟨F2, hF2⟩ : ∃ b : Objs, b = ("app_s_key", k2.1.toList.map byteVal) :: ("nwk_s_key", k1.1.toList.map byteVal) :: base := ⟨_, rfl⟩
  rw [← hk1, ← hk2]
  refine ⟨F2, ?_⟩
  have q1 := fun w => run_derive_session_key I L (k + 2) s x F0 (pktVars e mt snr rssi port n frameStart :: fs) w hL hr "nwk_s_key" (by rw [hF0]; rfl) 1 an ni .u8 .u32 .u32
  have q2 := fun w => run_derive_session_key I L (k + 2) s x F1 (pktVars e mt snr rssi port n frameStart :: fs) w hL hr "app_s_key" (by rw [hF1]; rfl) 2 an ni .u8 .u32 .u32
  have p1 : F0.put "nwk_s_key" (k1.1.toList.map byteVal) = F1 := by rw [hF0, hF1]; rfl
  have p2 : F1.put "app_s_key" (k2.1.toList.map byteVal) = F2 := by rw [hF1, hF2]; rfl
  simp only [← hk1, p1] at q1
  simp only [← hk2, p2] at q2
  have ld : ∀ (o : String) (b : Block), F2.get o = some (b.toList.map byteVal) → ∀ s' f w, loads ⟨some (fs.length + 1), o, 0⟩ 16 (⟨enc s' x, f :: F2 :: pktVars e mt snr rssi port n frameStart :: fs, w⟩ : Mem World) =
      .ok (b.toList.map byteVal, ⟨enc s' x, f :: F2 :: pktVars e mt snr rssi port n frameStart :: fs, w⟩) := by
    intro o b h s' f w
    have := loads_bytes (m := (⟨enc s' x, f :: F2 :: pktVars e mt snr rssi port n frameStart :: fs, w⟩ : Mem World)) (fr := some (fs.length + 1)) (o := o) (l := b.toList) (off := 0) (n := 16)
      (by have := getObj_below F2 (pktVars e mt snr rssi port n frameStart :: fs) w (enc s' x) f o; rw [← h]; exact this) (by simp)
    rw [List.drop_zero, List.take_of_length_le (by simp)] at this
    exact this
  have q3 := fun w => run_uwan_set_session I L (k + 2) s x (F2 :: pktVars e mt snr rssi port n frameStart :: fs) w ad 0 0 k1.1 k2.1 ⟨some (fs.length + 1), "nwk_s_key", 0⟩ ⟨some (fs.length + 1), "app_s_key", 0⟩ .u32 .i32 .i32 hdr
    (ld _ _ (by rw [hF2]; rfl)) (ld _ _ (by rw [hF2]; rfl))
  simp only [show ((1 : Byte).toNat : Int) = 1 from rfl, show ((2 : Byte).toNat : Int) = 2 from rfl, show ((0 : U32).toNat : Int) = 0 from rfl, List.length_cons] at q1 q2 q3
  have x1 : exec ⟨host I, call (host I) Src.prog L (k + 4), L⟩ ((((((((((Src.handle_join_msg.body.after 8).after 2).after 5).after 2).after 13).after 6).after 2).after 4).after 1).upTo 6)
      ⟨enc s x, acceptDone fs c mic h ctx an ni ad v1 v2 v3 v4 :: pktVars e mt snr rssi port n frameStart :: fs, w⟩ = .ok (.next, ⟨enc s x, F0 :: pktVars e mt snr rssi port n frameStart :: fs, w⟩) := by
    rw [hF0, hbase]
    unfold Src.handle_join_msg pktVars acceptDone acceptLocs
    crun [Stmt.upTo, Stmt.after, getObj_top2, putObj_top2, getObj_below]
  refine (exec_split _ _ _ _ _ x1).trans ?_
  have g : ∀ F : Objs, (F = F0 ∨ F = F1 ∨ F = F2) → F.get "nwk" = some [.int .u8 1] ∧ F.get "app" = some [.int .u8 2] ∧ F.get "app_nonce" = some [.int .u32 an.toNat] ∧ F.get "net_id" = some [.int .u32 ni.toNat] ∧ F.get "dev_addr" = some [.int .u32 ad.toNat] := by
    intro F hF
    rcases hF with rfl | rfl | rfl
    · rw [hF0, hbase]; exact ⟨rfl, rfl, rfl, rfl, rfl⟩
    · rw [hF1, hbase]; exact ⟨rfl, rfl, rfl, rfl, rfl⟩
    · rw [hF2, hbase]; exact ⟨rfl, rfl, rfl, rfl, rfl⟩
  obtain ⟨g1, g2, g3, g4, g5⟩ := g F0 (Or.inl rfl)
  obtain ⟨g6, g7, g8, g9, g10⟩ := g F1 (Or.inr (Or.inl rfl))
  obtain ⟨g11, g12, g13, g14, g15⟩ := g F2 (Or.inr (Or.inr rfl))
  unfold Src.handle_join_msg
  crun [Stmt.after, getObj_top2, g1, g3, g4, g7, g8, g9, g15, q1, q2, q3]
  simp [World.did]

end
end Uwan.C
