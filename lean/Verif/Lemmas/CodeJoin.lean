import Verif.Lemmas.CodeRadio

/-! # uwan_join -/

namespace Uwan.C

section
variable (I : Input) (L k : Nat) (s : St) (x : Extra) (fs : List Objs) (w : World)

/-- The state when `uwan_join` starts to write the frame. -/
def joinReady (s : St) (sf : Sf) (bw : Bw) : St :=
  { s with pp := { s.pp with sf := sf, bw := bw, invertedIq := false }, session := { s.session with isJoined := false }, joinState := true }

theorem join_busy (h : s.phase ≠ .idle) : exec ⟨host I, call (host I) Src.prog L (k + 3), L⟩ (Src.uwan_join.body.upTo 3) ⟨enc s x, [] :: fs, w⟩ =
    .ok (.ret (some (.int .i32 1)), ⟨enc s x, [("offset", [.int .u8 0])] :: fs, w⟩) := by
  unfold Src.uwan_join
  cases hp : s.phase <;> first | exact absurd hp h | crun [Stmt.upTo, hp]

theorem join_none (hp : s.phase = .idle) (hc : ∀ fs', call (host I) Src.prog L (k + 3) "channels_get_next" [] ⟨enc s x, fs', w⟩ = .ok (.int .u32 0, ⟨enc s x, fs', afterNext s.chan w⟩)) :
    exec ⟨host I, call (host I) Src.prog L (k + 3), L⟩ (Src.uwan_join.body.upTo 6) ⟨enc s x, [] :: fs, w⟩ =
    .ok (.ret (some (.int .i32 3)), ⟨enc s x, [("frequency", [.int .u32 0]), ("offset", [.int .u8 0])] :: fs, afterNext s.chan w⟩) := by
  unfold Src.uwan_join
  crun [Stmt.upTo, hp, hc]

theorem join_radio (hp : s.phase = .idle) (f : U32) (hf : f ≠ 0) (w' : World)
    (hc : ∀ fs', call (host I) Src.prog L (k + 3) "channels_get_next" [] ⟨enc s x, fs', w⟩ = .ok (.int .u32 f.toNat, ⟨enc s x, fs', w'⟩)) (hr : s.region.isSome = true)
    (hpw : s.txPower.toNat < 8) (sf : Sf) (bw : Bw) (ht : drTable s.defaultDr = some (sf, bw)) (l : List Ev) (ha : applyTxPower s = .ok l) :
    exec ⟨host I, call (host I) Src.prog L (k + 3), L⟩ (Src.uwan_join.body.upTo 16) ⟨enc s x, [] :: fs, w⟩ =
    .ok (.next, ⟨enc (joinReady s sf bw) x, [("dr", [.ptr ⟨none, "uw_dr_table", s.defaultDr⟩]), ("frequency", [u32Val f]), ("offset", [.int .u8 0])] :: fs,
      w'.did w'.cmac ([.setFrequency f, .setup (joinReady s sf bw).pp] ++ l)⟩) := by
  unfold Src.uwan_join
  have h0 : (f.toNat : Int) ≠ 0 := by
    intro h
    apply hf
    apply BitVec.eq_of_toNat_eq
    simpa using h
  have h1 := f.isLt
  have hs := sf_num_lt sf
  obtain ⟨hb, rfl⟩ := cell_dr_bw (ω := World) ⟨enc s x, fs, w⟩ _ _ _ ht
  have hb' := fun m : Mem World => (cell_dr_bw m _ _ _ ht).1
  have ha' : applyTxPower { s with pp := { s.pp with sf := sf, bw := .bw125, invertedIq := false } } = .ok l := ha
  have hq := fun fs' w => run_apply_tx_power I L (k + 1) { s with pp := { s.pp with sf := sf, bw := .bw125, invertedIq := false } } x fs' w hr hpw l ha'
  dsimp only at hq
  have hn : ((Phase.num s.phase : Nat) : Int) = 1 := by rw [hp]; rfl
  crun [Stmt.upTo, hn, hc, hr, cell_dr_sf _ _ _ _ ht, hb', put_pkt_sf, hq]
  simp [World.did, World.say, joinReady]

theorem rev8 (v : Vector Byte 8) : v.toList.reverse = [byteAt v.toList 7, byteAt v.toList 6, byteAt v.toList 5, byteAt v.toList 4, byteAt v.toList 3, byteAt v.toList 2, byteAt v.toList 1, byteAt v.toList 0] := by
  obtain ⟨⟨l⟩, h⟩ := v
  match l, h with
  | [a, b, c, d, e, f, g, i], _ => rfl

/-- The join-request without its MIC. -/
def joinMsg (s : St) (nonce : U32) : Bytes := 0x00 :: (s.appEui.toList ++ s.devEui.toList.reverse ++ [byteOf nonce 0, byteOf nonce 1])

theorem loads_app_eui {ω : Type} (s : St) (x : Extra) (fs : List Objs) (w : ω) : loads ⟨none, "uw_app_eui", 0⟩ 8 (⟨enc s x, fs, w⟩ : Mem ω) = .ok (s.appEui.toList.map byteVal, ⟨enc s x, fs, w⟩) := by
  have := loads_bytes (m := (⟨enc s x, fs, w⟩ : Mem ω)) (fr := none) (o := "uw_app_eui") (l := s.appEui.toList) (off := 0) (n := 8) rfl (by simp)
  rw [List.drop_zero, List.take_of_length_le (by simp)] at this
  exact this

theorem join_frame (hL : 16 < L) (hfr : s.frame.length = 255) (r : Nat) (rs : List Nat) (hw : w.rands = r :: rs) (hr : r < 2147483648) (a b : List Val) :
    exec ⟨host I, call (host I) Src.prog L (k + 3), L⟩ ((Src.uwan_join.body.after 16).upTo 9) ⟨enc s x, [("dr", a), ("frequency", b), ("offset", [.int .u8 0])] :: fs, w⟩ =
    .ok (.next, ⟨enc { s with frame := over s.frame (joinMsg s (BitVec.ofNat 32 (r % 65536))), devNonce := BitVec.ofNat 32 (r % 65536) } x,
      [("i", [.int .u8 0]), ("dr", a), ("frequency", b), ("offset", [.int .u8 19])] :: fs, { w with rands := rs }⟩) := by
  unfold Src.uwan_join
  obtain ⟨N, rfl⟩ : ∃ N, L = N + 9 := ⟨L - 9, by omega⟩
  have hq : ∀ s' fs', call (host I) Src.prog (N + 9) (k + 3) "utils_get_random" [.int .i32 65536] ⟨enc s' x, fs', w⟩ = .ok (.int .u32 (r % 65536 : Nat), ⟨enc s' x, fs', { w with rands := rs }⟩) :=
    fun s' fs' => run_utils_get_random I (N + 9) (k + 1) s' x fs' w r rs hw hr .i32 65536 (by omega) (by omega)
  have hn : r % 65536 < 65536 := Nat.mod_lt _ (by omega)
  have hz : BitVec.ofInt 8 (ofBits Ty.i32 (bits (0 * 2 ^ 5) ||| bits 0) % 256) = 0 := by decide
  have la : s.appEui.toList.length = 8 := by simp
  have ld : s.devEui.toList.length = 8 := by simp
  obtain ⟨nonce, hno⟩ : ∃ n : U32, n = BitVec.ofNat 32 (r % 65536) := ⟨_, rfl⟩
  have hno' : BitVec.ofInt 32 ((r % 65536 : Nat) : Int) = nonce := by rw [hno, BitVec.ofInt_natCast]
  rw [← hno]
  unfold joinMsg
  rw [rev8]
  obtain ⟨f1, e1⟩ : ∃ f, f = over s.frame [0] := ⟨_, rfl⟩
  obtain ⟨f2, e2⟩ : ∃ f, f = over s.frame ([0] ++ s.appEui.toList) := ⟨_, rfl⟩
  have h1 : s.frame.set 0 0 = f1 := by rw [e1]; exact over_set s.frame [] 0 0 rfl (by simp [hfr])
  have h2 : putAt f1 1 s.appEui.toList = f2 := by rw [e1, e2]; exact over_put _ _ _ _ rfl (by simp [hfr])
  have l1 : f1.length = 255 := by rw [e1, over_length _ _ (by simp [hfr]), hfr]
  have l2 : f2.length = 255 := by rw [e2, over_length _ _ (by simp [hfr]), hfr]
  obtain ⟨f3, e3⟩ : ∃ f, f = over s.frame ([0] ++ s.appEui.toList ++ [byteAt s.devEui.toList 7]) := ⟨_, rfl⟩
  have h3 : f2.set 9 (byteAt s.devEui.toList 7) = f3 := by rw [e2, e3]; exact over_set _ _ _ _ (by simp) (by simp [hfr])
  have l3 : f3.length = 255 := by rw [e3, over_length _ _ (by simp [hfr]), hfr]
  obtain ⟨f4, e4⟩ : ∃ f, f = over s.frame ([0] ++ s.appEui.toList ++ [byteAt s.devEui.toList 7] ++ [byteAt s.devEui.toList 6]) := ⟨_, rfl⟩
  have h4 : f3.set 10 (byteAt s.devEui.toList 6) = f4 := by rw [e3, e4]; exact over_set _ _ _ _ (by simp) (by simp [hfr])
  have l4 : f4.length = 255 := by rw [e4, over_length _ _ (by simp [hfr]), hfr]
  obtain ⟨f5, e5⟩ : ∃ f, f = over s.frame ([0] ++ s.appEui.toList ++ [byteAt s.devEui.toList 7] ++ [byteAt s.devEui.toList 6] ++ [byteAt s.devEui.toList 5]) := ⟨_, rfl⟩
  have h5 : f4.set 11 (byteAt s.devEui.toList 5) = f5 := by rw [e4, e5]; exact over_set _ _ _ _ (by simp) (by simp [hfr])
  have l5 : f5.length = 255 := by rw [e5, over_length _ _ (by simp [hfr]), hfr]
  obtain ⟨f6, e6⟩ : ∃ f, f = over s.frame ([0] ++ s.appEui.toList ++ [byteAt s.devEui.toList 7] ++ [byteAt s.devEui.toList 6] ++ [byteAt s.devEui.toList 5] ++ [byteAt s.devEui.toList 4]) := ⟨_, rfl⟩
  have h6 : f5.set 12 (byteAt s.devEui.toList 4) = f6 := by rw [e5, e6]; exact over_set _ _ _ _ (by simp) (by simp [hfr])
  have l6 : f6.length = 255 := by rw [e6, over_length _ _ (by simp [hfr]), hfr]
  obtain ⟨f7, e7⟩ : ∃ f, f = over s.frame ([0] ++ s.appEui.toList ++ [byteAt s.devEui.toList 7] ++ [byteAt s.devEui.toList 6] ++ [byteAt s.devEui.toList 5] ++ [byteAt s.devEui.toList 4] ++ [byteAt s.devEui.toList 3]) := ⟨_, rfl⟩
  have h7 : f6.set 13 (byteAt s.devEui.toList 3) = f7 := by rw [e6, e7]; exact over_set _ _ _ _ (by simp) (by simp [hfr])
  have l7 : f7.length = 255 := by rw [e7, over_length _ _ (by simp [hfr]), hfr]
  obtain ⟨f8, e8⟩ : ∃ f, f = over s.frame ([0] ++ s.appEui.toList ++ [byteAt s.devEui.toList 7] ++ [byteAt s.devEui.toList 6] ++ [byteAt s.devEui.toList 5] ++ [byteAt s.devEui.toList 4] ++ [byteAt s.devEui.toList 3] ++ [byteAt s.devEui.toList 2]) := ⟨_, rfl⟩
  have h8 : f7.set 14 (byteAt s.devEui.toList 2) = f8 := by rw [e7, e8]; exact over_set _ _ _ _ (by simp) (by simp [hfr])
  have l8 : f8.length = 255 := by rw [e8, over_length _ _ (by simp [hfr]), hfr]
  obtain ⟨f9, e9⟩ : ∃ f, f = over s.frame ([0] ++ s.appEui.toList ++ [byteAt s.devEui.toList 7] ++ [byteAt s.devEui.toList 6] ++ [byteAt s.devEui.toList 5] ++ [byteAt s.devEui.toList 4] ++ [byteAt s.devEui.toList 3] ++ [byteAt s.devEui.toList 2] ++ [byteAt s.devEui.toList 1]) := ⟨_, rfl⟩
  have h9 : f8.set 15 (byteAt s.devEui.toList 1) = f9 := by rw [e8, e9]; exact over_set _ _ _ _ (by simp) (by simp [hfr])
  have l9 : f9.length = 255 := by rw [e9, over_length _ _ (by simp [hfr]), hfr]
  obtain ⟨f10, e10⟩ : ∃ f, f = over s.frame ([0] ++ s.appEui.toList ++ [byteAt s.devEui.toList 7] ++ [byteAt s.devEui.toList 6] ++ [byteAt s.devEui.toList 5] ++ [byteAt s.devEui.toList 4] ++ [byteAt s.devEui.toList 3] ++ [byteAt s.devEui.toList 2] ++ [byteAt s.devEui.toList 1] ++ [byteAt s.devEui.toList 0]) := ⟨_, rfl⟩
  have h10 : f9.set 16 (byteAt s.devEui.toList 0) = f10 := by rw [e9, e10]; exact over_set _ _ _ _ (by simp) (by simp [hfr])
  have l10 : f10.length = 255 := by rw [e10, over_length _ _ (by simp [hfr]), hfr]
  obtain ⟨f11, e11⟩ : ∃ f, f = over s.frame ([0] ++ s.appEui.toList ++ [byteAt s.devEui.toList 7] ++ [byteAt s.devEui.toList 6] ++ [byteAt s.devEui.toList 5] ++ [byteAt s.devEui.toList 4] ++ [byteAt s.devEui.toList 3] ++ [byteAt s.devEui.toList 2] ++ [byteAt s.devEui.toList 1] ++ [byteAt s.devEui.toList 0] ++ [byteOf nonce 0]) := ⟨_, rfl⟩
  have h11 : f10.set 17 (byteOf nonce 0) = f11 := by rw [e10, e11]; exact over_set _ _ _ _ (by simp) (by simp [hfr])
  have l11 : f11.length = 255 := by rw [e11, over_length _ _ (by simp [hfr]), hfr]
  obtain ⟨f12, e12⟩ : ∃ f, f = over s.frame ([0] ++ s.appEui.toList ++ [byteAt s.devEui.toList 7] ++ [byteAt s.devEui.toList 6] ++ [byteAt s.devEui.toList 5] ++ [byteAt s.devEui.toList 4] ++ [byteAt s.devEui.toList 3] ++ [byteAt s.devEui.toList 2] ++ [byteAt s.devEui.toList 1] ++ [byteAt s.devEui.toList 0] ++ [byteOf nonce 0] ++ [byteOf nonce 1]) := ⟨_, rfl⟩
  have h12 : f11.set 18 (byteOf nonce 1) = f12 := by rw [e11, e12]; exact over_set _ _ _ _ (by simp) (by simp [hfr])
  have l12 : f12.length = 255 := by rw [e12, over_length _ _ (by simp [hfr]), hfr]
  crun [Stmt.upTo, Stmt.after, exec_loop, iter_unroll, hq, hz, h1, h2, loads_app_eui, hno', Int.reduceSub, h3, h4, h5, h6, h7, h8, h9, h10, h11, h12]
  simp [e12]

theorem mic_length (E : Env) (ss : Session) (msg : Bytes) (key : Block) (dir : Byte) (b0 : Bool) : (calcMic E ss msg key dir b0).1.length = 4 := by simp [calcMic]

/-- `calc_mic` at the end of the frame. -/
theorem run_frame_mic (hr : s.region.isSome = true) (fr msg : Bytes) (hf : s.frame = over fr msg) (hl : fr.length = 255) (hm : msg.length ≤ 251) (key : Ref) (kb : Block) (dir : Byte) (b0 : Bool) (t t' : Ty)
    (hk : ∀ f w, loads key 16 (⟨enc s x, f :: fs, w⟩ : Mem World) = .ok (kb.toList.map byteVal, ⟨enc s x, f :: fs, w⟩)) :
    ∃ c, call (host I) Src.prog L (k + 2) "calc_mic" [.ptr ⟨none, "uw_frame", msg.length⟩, .ptr ⟨none, "uw_frame", 0⟩, .int t msg.length, .ptr key, .int t' dir.toNat, boolVal b0] ⟨enc s x, fs, w⟩ =
    .ok (.null, ⟨enc { s with frame := over fr (msg ++ (calcMic I.env s.session msg kb dir b0).1) } x, fs, w.did c (calcMic I.env s.session msg kb dir b0).2⟩) := by
  refine run_calc_mic I L k s x fs w hr _ fs _ _ key msg (by omega) kb dir b0 t t' hk (fun f w => over_load s x _ w fr msg hf (by omega)) ?_
  intro f w
  refine stores_frame s x (f :: fs) w _ _ _ (Int.natCast_nonneg _) ?_
  rw [hf, Int.toNat_natCast]
  exact over_blit _ _ _ _ rfl (by rw [mic_length]; omega)

theorem mic_flag (m : Mem World) (a b c d e : Val) (n : Bool) : call (host I) Src.prog L (k + 2) "calc_mic" [a, b, c, d, e, .int .i32 (if n then 1 else 0)] m = call (host I) Src.prog L (k + 2) "calc_mic" [a, b, c, d, e, boolVal n] m := by
  rw [call_fun (host I) find_calc_mic, call_fun (host I) find_calc_mic]
  cases n <;> rfl

theorem join_send (hr : s.region.isSome = true) (fr msg : Bytes) (hf : s.frame = over fr msg) (hl : fr.length = 255) (hm : msg.length = 19) (a b i : List Val) :
    ∃ c, exec ⟨host I, call (host I) Src.prog L (k + 3), L⟩ ((Src.uwan_join.body.after 16).after 9) ⟨enc s x, [("i", i), ("dr", a), ("frequency", b), ("offset", [.int .u8 19])] :: fs, w⟩ =
    .ok (.ret (some (.int .i32 0)), ⟨enc { s with frame := over fr (msg ++ (calcMic I.env s.session msg s.appKey 0 false).1), rx1Delay := 5000, rx2Delay := 6000, phase := .tx } x,
      [("i", i), ("dr", a), ("frequency", b), ("offset", [.int .u8 23])] :: fs, w.did c ((calcMic I.env s.session msg s.appKey 0 false).2 ++ [.tx (msg ++ (calcMic I.env s.session msg s.appKey 0 false).1)])⟩) := by
  unfold Src.uwan_join
  obtain ⟨c, hc⟩ := run_frame_mic I L (k + 1) s x ([("i", i), ("dr", a), ("frequency", b), ("offset", [.int .u8 19])] :: fs) w hr fr msg hf hl (by omega) ⟨none, "uw_app_key", 0⟩ s.appKey 0 false .u8 .i32
    (fun f w => loads_app_key s x _ w)
  refine ⟨c, ?_⟩
  rw [← mic_flag] at hc
  have hml := mic_length I.env s.session msg s.appKey 0 false
  generalize calcMic I.env s.session msg s.appKey 0 false = mic at hc hml ⊢
  have hc' : call (host I) Src.prog L (k + 3) "calc_mic" [.ptr ⟨none, "uw_frame", 19⟩, .ptr ⟨none, "uw_frame", 0⟩, .int .u8 19, .ptr ⟨none, "uw_app_key", 0⟩, .int .i32 0, .int .i32 0]
      ⟨enc s x, [("i", i), ("dr", a), ("frequency", b), ("offset", [.int .u8 19])] :: fs, w⟩ =
      .ok (.null, ⟨enc { s with frame := over fr (msg ++ mic.1) } x, [("i", i), ("dr", a), ("frequency", b), ("offset", [.int .u8 19])] :: fs, w.did c mic.2⟩) := by
    rw [hm] at hc
    exact hc
  have hlen : (msg ++ mic.1).length = 23 := by rw [List.length_append, hm, hml]
  have hload : ∀ s' fs' w, s'.frame = over fr (msg ++ mic.1) → loads ⟨none, "uw_frame", 0⟩ 23 (⟨enc s' x, fs', w⟩ : Mem World) = .ok ((msg ++ mic.1).map byteVal, ⟨enc s' x, fs', w⟩) := by
    intro s' fs' w h
    have := over_load s' x fs' w fr (msg ++ mic.1) h (by omega)
    rw [hlen] at this
    exact this
  have hl2 := fun fs' w => hload { s with frame := over fr (msg ++ mic.1), rx1Delay := 5000, rx2Delay := 6000, phase := .tx } fs' w rfl
  have n5 : BitVec.ofInt 32 5000 = (5000 : U32) := by decide
  have n6 : BitVec.ofInt 32 6000 = (6000 : U32) := by decide
  crun [Stmt.after, hc', hr, hl2, n5, n6]
  simp [World.did, World.say]

theorem joinMsg_length (s : St) (n : U32) : (joinMsg s n).length = 19 := by simp [joinMsg]

/-- A call, given the execution of the body. -/
theorem call_done {ω : Type} {H : Host ω} {y : String} {f : Fun} {L k : Nat} (h : Src.prog.find y = some f) (as : List Val) (g g' : Objs) (fs : List Objs) (w w' : ω) {fr fr' : Objs} {o : Out} {v : Val}
    (hb : bindParams f.params as = .ok fr) (hx : exec ⟨H, call H Src.prog L k, L⟩ f.body ⟨g, fr :: fs, w⟩ = .ok (o, ⟨g', fr' :: fs, w'⟩)) (hv : valueOf f.result o = .ok v) :
    call H Src.prog L (k + 1) y as ⟨g, fs, w⟩ = .ok (v, ⟨g', fs, w'⟩) := by
  rw [call_fun H h, hb]
  show andThen (exec _ _ _) _ = _
  rw [hx]
  show leave _ _ _ = _
  unfold leave
  rw [hv]
  rfl

/-- `uwan_join` of the program text does what the model says. -/
theorem run_uwan_join (hL : 256 ≤ L) (hi : Inv s) (r1 r2 : Nat) (rs : List Nat) (hw : w.rands = r1 :: r2 :: rs) (h1 : r1 < 2147483648) (h2 : r2 < 2147483648) (e : Err) (s' : St) (ev : List Ev)
    (h : uwanJoin I.env s r1 r2 = .ok (e, s', ev)) :
    ∃ w', call (host I) Src.prog L (k + 4) "uwan_join" [] ⟨enc s x, fs, w⟩ = .ok (enumVal (Err.num e), ⟨enc s' x, fs, w'⟩) ∧ w'.ev = w.ev ++ ev ∧ w'.bats = w.bats := by
  unfold uwanJoin at h
  by_cases hp : s.phase = .idle
  · rw [if_neg (by simpa using hp)] at h
    have hr := hi.region (by rw [hp]; decide)
    cases hf : channelsGetNext s.chan r1 with
    | error e => rw [hf] at h; cases h
    | ok f =>
      rw [hf] at h
      have hc := fun fs' => run_channels_get_next I L k s x fs' w hL r1 (r2 :: rs) hw h1 hi.chan.max_le f hf
      by_cases hz : f = 0
      · subst hz
        cases h
        have := exec_split_ret _ _ _ _ _ _ (join_none I L k s x fs w hp hc)
        refine ⟨afterNext s.chan w, call_done find_uwan_join [] _ _ _ _ _ rfl this rfl, ?_, ?_⟩
        · unfold afterNext; split <;> simp
        · unfold afterNext; split <;> rfl
      · have h0 : s.chan.maxCount ≠ 0 := by
          intro h0
          unfold channelsGetNext at hf
          rw [if_pos h0] at hf
          cases hf
          exact hz rfl
        have hn : afterNext s.chan w = { w with rands := r2 :: rs } := by
          unfold afterNext
          rw [if_neg h0, hw]
          rfl
        rw [hn] at hc
        simp only [bind, Except.bind, hz, if_false] at h
        cases ht : drTable s.defaultDr with
        | none => rw [ht] at h; cases h
        | some d =>
          obtain ⟨sf, bw⟩ := d
          rw [ht] at h
          simp only [orOob] at h
          cases ha : applyTxPower s with
          | error e =>
            have ha' : applyTxPower { s with pp := { s.pp with sf := sf, bw := bw, invertedIq := false } } = .error e := ha
            rw [ha'] at h; cases h
          | ok l =>
            have ha' : applyTxPower { s with pp := { s.pp with sf := sf, bw := bw, invertedIq := false } } = .ok l := ha
            rw [ha'] at h
            have x1 := exec_split _ _ _ _ _ (join_radio I L k s x fs w hp f hz _ hc hr hi.txPower sf bw ht l ha)
            have x2 := exec_split _ _ _ _ _ (join_frame I L k (joinReady s sf bw) x fs (({ w with rands := r2 :: rs } : World).did w.cmac ([.setFrequency f, .setup (joinReady s sf bw).pp] ++ l)) (by omega) hi.frame r2 rs rfl h2
              [.ptr ⟨none, "uw_dr_table", s.defaultDr⟩] [u32Val f])
            obtain ⟨nonce, hno⟩ : ∃ n : U32, n = BitVec.ofNat 32 (r2 % 65536) := ⟨_, rfl⟩
            rw [← hno] at x2 h
            obtain ⟨c, x3⟩ := join_send I L k { joinReady s sf bw with frame := over s.frame (joinMsg (joinReady s sf bw) nonce), devNonce := nonce } x fs
              { (({ w with rands := r2 :: rs } : World).did w.cmac ([.setFrequency f, .setup (joinReady s sf bw).pp] ++ l)) with rands := rs } hr s.frame (joinMsg (joinReady s sf bw) nonce) rfl hi.frame (joinMsg_length _ _)
              [.ptr ⟨none, "uw_dr_table", s.defaultDr⟩] [u32Val f] [.int .u8 0]
            have hm := mic_length I.env s.session (joinMsg (joinReady s sf bw) nonce) s.appKey 0 false
            have hl := joinMsg_length (joinReady s sf bw) nonce
            have hj : buildJoin I.env { s with pp := { s.pp with sf := sf, bw := bw, invertedIq := false } } nonce =
              (joinMsg (joinReady s sf bw) nonce ++ (calcMic I.env s.session (joinMsg (joinReady s sf bw) nonce) s.appKey 0 false).1, (calcMic I.env s.session (joinMsg (joinReady s sf bw) nonce) s.appKey 0 false).2) := rfl
            have hb := blit_over s.frame (joinMsg (joinReady s sf bw) nonce ++ (calcMic I.env s.session (joinMsg (joinReady s sf bw) nonce) s.appKey 0 false).1) (by rw [List.length_append, hm, hl, hi.frame]; omega)
            have hh := call_done find_uwan_join [] _ _ _ _ _ rfl ((x1.trans x2).trans x3) rfl
            simp only [hj, hb] at h
            cases h
            refine ⟨_, hh, ?_, rfl⟩
            simp [World.did]
            exact ⟨rfl, rfl, rfl⟩
  · rw [if_pos (by simpa using hp)] at h
    cases h
    have := exec_split_ret _ _ _ _ _ _ (join_busy I L k s x fs w hp)
    exact ⟨w, call_done find_uwan_join [] _ _ _ _ _ rfl this rfl, by simp, rfl⟩
end
end Uwan.C
