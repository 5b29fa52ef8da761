import Verif.Lemmas.CodeAccept
import Verif.Lemmas.Join

/-! # handle_join_msg, continued -/

namespace Uwan.C

section
variable (I : Input) (L k : Nat) (s : St) (x : Extra) (fs : List Objs) (w : World) (e mt snr rssi : Val) (port n : Int)

theorem cfRounds_congr (first : Nat) (g g' : Nat → Byte) (c : Chan) (h : ∀ i < 16, g i = g' i) : cfRounds first g c 5 = cfRounds first g' c 5 := by
  simp only [cfRounds_succ]
  unfold cfRound
  simp only [h 0 (by omega), h 1 (by omega), h 2 (by omega), h 3 (by omega), h 4 (by omega), h 5 (by omega), h 6 (by omega), h 7 (by omega), h 8 (by omega), h 9 (by omega), h 10 (by omega), h 11 (by omega), h 12 (by omega),
    h 13 (by omega), h 14 (by omega), Nat.reduceMul, Nat.reduceAdd]
  rfl

/-- `handle_join_msg` from the MIC check on. -/
theorem accept_rest (c : Bool) (h ctx : Val) (hL : 16 < L) (r : Region) (hr : s.region = some r) (hm : s.chan.maxCount < 256) (hdr : s.defaultDr < 6) (fr buf : Bytes) (hf : s.frame = over fr buf) (hl : fr.length = 255)
    (hb : buf.length = if c then 33 else 17) (pkt : DlPkt) (er : Err) (s' : St) (pkt' : DlPkt) (ev : List Ev) (hfin : joinFinish I.env s pkt buf c = .ok (er, s', pkt', ev)) :
    ∃ v f' w', exec ⟨host I, call (host I) Src.prog L (k + 4), L⟩ (((Src.handle_join_msg.body.after 8).after 2).after 5)
      ⟨enc s x, (("ctx", [ctx]) :: acceptVars fs c 1 (List.replicate 4 (.uninit (some .u8))) h) :: pktVars e mt snr rssi port buf.length frameStart :: fs, w⟩ =
    .ok (.ret (some (.int .i32 v)), ⟨enc s' x, f' :: pktVars e mt snr rssi port buf.length frameStart :: fs, w'⟩) ∧ v = ((Err.num er : Nat) : Int) ∧ w'.ev = w.ev ++ ev ∧ w'.bats = w.bats ∧ pkt' = pkt ∧ s'.frame = s.frame := by
  obtain ⟨q, hmic⟩ := accept_mic I L k s x fs w e mt snr rssi port c h ctx (by rw [hr]; rfl) fr buf hf hl hb
  unfold joinFinish at hfin
  simp only at hfin
  by_cases hz : buf.drop (buf.length - 4) = (calcMic I.env s.session (buf.take (buf.length - 4)) s.appKey 0 false).1
  · rw [if_neg (by simpa using hz)] at hfin
    rw [if_pos hz] at hmic
    obtain ⟨mic, hmd⟩ : ∃ q, q = calcMic I.env s.session (buf.take (buf.length - 4)) s.appKey 0 false := ⟨_, rfl⟩
    rw [← hmd] at hmic hfin
    have x1 := exec_split _ _ _ _ _ hmic
    have hfr : s.frame.length = 255 := by rw [hf, over_length _ _ (by cases c <;> simp at hb <;> omega), hl]
    match buf, hf, hb, hfin, x1 with
    | b0 :: n0 :: n1 :: n2 :: i0 :: i1 :: i2 :: a0 :: a1 :: a2 :: a3 :: dl :: dly :: rest, hf, hb, hfin, x1 =>
      have x2 := exec_split _ _ _ _ _ (accept_words I L k s x fs (w.did q mic.2) e mt snr rssi port ((b0 :: n0 :: n1 :: n2 :: i0 :: i1 :: i2 :: a0 :: a1 :: a2 :: a3 :: dl :: dly :: rest).length : Nat) c (mic.1.map byteVal) h ctx hfr
        n0 n1 n2 i0 i1 i2 a0 a1 a2 a3 (by rw [hf]; rfl) (by rw [hf]; rfl) (by rw [hf]; rfl) (by rw [hf]; rfl) (by rw [hf]; rfl) (by rw [hf]; rfl) (by rw [hf]; rfl) (by rw [hf]; rfl) (by rw [hf]; rfl) (by rw [hf]; rfl))
      have x3 := exec_split _ _ _ _ _ (accept_settings I L k s x fs ((w.did q mic.2).did q (shiftMark a3)) e mt snr rssi port ((b0 :: n0 :: n1 :: n2 :: i0 :: i1 :: i2 :: a0 :: a1 :: a2 :: a3 :: dl :: dly :: rest).length : Nat)
        c (mic.1.map byteVal) h ctx (or24 n0 n1 n2) (or24 i0 i1 i2) (or32 a0 a1 a2 a3) hfr dl _ _ (by rw [hf]; rfl) rfl rfl)
      have x4 := exec_split _ _ _ _ _ (accept_windows I L k s x fs ((w.did q mic.2).did q (shiftMark a3)) e mt snr rssi port ((b0 :: n0 :: n1 :: n2 :: i0 :: i1 :: i2 :: a0 :: a1 :: a2 :: a3 :: dl :: dly :: rest).length : Nat)
        ((dl >>> 4) &&& 7) (dl &&& 0xf) (("dl_settings", [.int .u8 dl.toNat]) :: acceptLocs fs c 12 (mic.1.map byteVal) h ctx (or24 n0 n1 n2) (or24 i0 i1 i2) (or32 a0 a1 a2 a3)))
      have hwf : ∀ o r2, (joinWindows s o r2).frame = s.frame ∧ (joinWindows s o r2).chan = s.chan ∧ (joinWindows s o r2).region = s.region ∧ (joinWindows s o r2).defaultDr = s.defaultDr ∧
          (joinWindows s o r2).appKey = s.appKey ∧ (joinWindows s o r2).devNonce = s.devNonce := by
        intro o r2
        unfold joinWindows
        dsimp only
        split <;> split <;> exact ⟨rfl, rfl, rfl, rfl, rfl, rfl⟩
      obtain ⟨w1, w2, w3, w4, w5, w6⟩ := hwf ((dl >>> 4) &&& 7) (dl &&& 0xf)
      have x5 := exec_split _ _ _ _ _ (accept_delay I L k (joinWindows s ((dl >>> 4) &&& 7) (dl &&& 0xf)) x fs ((w.did q mic.2).did q (shiftMark a3)) e mt snr rssi port
        ((b0 :: n0 :: n1 :: n2 :: i0 :: i1 :: i2 :: a0 :: a1 :: a2 :: a3 :: dl :: dly :: rest).length : Nat)
        c (mic.1.map byteVal) h ctx (or24 n0 n1 n2) (or24 i0 i1 i2) (or32 a0 a1 a2 a3) dl ((dl >>> 4) &&& 7) (dl &&& 0xf) (by rw [w1]; exact hfr) dly (by rw [w1, hf]; rfl))
      rw [← joinParams_eq] at x5
      obtain ⟨S, hS⟩ : ∃ S, S = joinRxParams s dl dly := ⟨_, rfl⟩
      have s1 : S.frame = s.frame := by rw [hS]; exact w1
      have s2 : S.chan = s.chan := by rw [hS]; exact w2
      have s3 : S.region = some r := by rw [hS, ← hr]; exact w3
      have s4 : S.defaultDr = s.defaultDr := by rw [hS]; exact w4
      rw [← hS] at x5
      unfold joinAccepted at hfin
      dsimp only at hfin
      rw [← hS] at hfin
      have hx := (((x1.trans x2).trans x3).trans x4).trans x5
      clear x1 x2 x3 x4 x5
      cases c with
      | false =>
        have x6 := exec_split _ _ _ _ _ (accept_no_channels I L k S x fs ((w.did q mic.2).did q (shiftMark a3)) e mt snr rssi port
          ((b0 :: n0 :: n1 :: n2 :: i0 :: i1 :: i2 :: a0 :: a1 :: a2 :: a3 :: dl :: dly :: rest).length : Nat)
          (mic.1.map byteVal) h ctx (.int .u8 (joinSecs dly).toNat) (.int .u8 (dl &&& 0xf).toNat) (.int .u8 ((dl >>> 4) &&& 7).toNat) (.int .u8 dl.toNat) (or24 n0 n1 n2) (or24 i0 i1 i2) (or32 a0 a1 a2 a3))
        obtain ⟨f', x7⟩ := accept_keys I L k S x fs ((w.did q mic.2).did q (shiftMark a3)) e mt snr rssi port
          ((b0 :: n0 :: n1 :: n2 :: i0 :: i1 :: i2 :: a0 :: a1 :: a2 :: a3 :: dl :: dly :: rest).length : Nat) false
          (mic.1.map byteVal) h ctx (.int .u8 (joinSecs dly).toNat) (.int .u8 (dl &&& 0xf).toNat) (.int .u8 ((dl >>> 4) &&& 7).toNat) (.int .u8 dl.toNat) (or24 n0 n1 n2) (or24 i0 i1 i2) (or32 a0 a1 a2 a3) hL (by rw [s3]; rfl) (by omega)
        have hc : joinCflist S false rest = .ok S.chan := rfl
        simp only [hc, bind, Except.bind] at hfin
        cases hfin
        refine ⟨0, f', _, (hx.trans x6).trans x7, rfl, ?_, rfl, rfl, s1⟩
        simp [World.did]
      | true =>
        have x6 := exec_split _ _ _ _ _ (accept_channels I L k S x fs ((w.did q mic.2).did q (shiftMark a3)) e mt snr rssi port
          ((b0 :: n0 :: n1 :: n2 :: i0 :: i1 :: i2 :: a0 :: a1 :: a2 :: a3 :: dl :: dly :: rest).length : Nat)
          (mic.1.map byteVal) h ctx (.int .u8 (joinSecs dly).toNat) (.int .u8 (dl &&& 0xf).toNat) (.int .u8 ((dl >>> 4) &&& 7).toNat) (.int .u8 dl.toNat) (or24 n0 n1 n2) (or24 i0 i1 i2) (or32 a0 a1 a2 a3)
          (by rw [s1]; exact hfr) hL (by rw [s2]; exact hm) r s3)
        have hrl : rest.length = 20 := by simp at hb; omega
        have hbyte : ∀ i : Nat, i < 16 → byteAt S.frame (13 + (i : Int)) = byteAt rest i := by
          intro i hi
          rw [s1, hf]
          unfold byteAt over
          have : (13 + (i : Int)).toNat = i + 13 := by omega
          rw [this, Int.toNat_natCast]
          simp only [List.getD_eq_getElem?_getD, List.cons_append, List.getElem?_cons_succ]
          rw [List.getElem?_append_left (by omega)]
        have hc : joinCflist S true rest = .ok (if byteAt S.frame 28 = 0 then cfRounds r.cflistFirst (fun i => byteAt S.frame (13 + (i : Nat))) S.chan 5 else S.chan) := by
          unfold joinCflist
          rw [if_pos rfl, s3]
          dsimp only
          rw [handleCflist_rounds r rest (by omega)]
          have h28 : byteAt S.frame 28 = byteAt rest 15 := hbyte 15 (by omega)
          rw [h28, cfRounds_congr _ _ _ _ (fun i hi => hbyte i hi)]
        obtain ⟨C, hC⟩ : ∃ C, C = (if byteAt S.frame 28 = 0 then cfRounds r.cflistFirst (fun i => byteAt S.frame (13 + (i : Nat))) S.chan 5 else S.chan) := ⟨_, rfl⟩
        rw [← hC] at hc x6
        obtain ⟨f', x7⟩ := accept_keys I L k { S with chan := C } x fs ((w.did q mic.2).did q (shiftMark a3)) e mt snr rssi port
          ((b0 :: n0 :: n1 :: n2 :: i0 :: i1 :: i2 :: a0 :: a1 :: a2 :: a3 :: dl :: dly :: rest).length : Nat) true
          (mic.1.map byteVal) h ctx (.int .u8 (joinSecs dly).toNat) (.int .u8 (dl &&& 0xf).toNat) (.int .u8 ((dl >>> 4) &&& 7).toNat) (.int .u8 dl.toNat) (or24 n0 n1 n2) (or24 i0 i1 i2) (or32 a0 a1 a2 a3) hL (by show S.region.isSome = true; rw [s3]; rfl)
          (by show S.defaultDr < _; omega)
        simp only [hc, bind, Except.bind] at hfin
        cases hfin
        refine ⟨0, f', _, (hx.trans x6).trans x7, rfl, ?_, rfl, rfl, s1⟩
        simp [World.did]
  · rw [if_pos (by simpa using hz)] at hfin
    cases hfin
    rw [if_neg hz] at hmic
    exact ⟨9, _, _, exec_split_ret _ _ _ _ _ _ hmic, rfl, rfl, rfl, rfl, rfl⟩

theorem split_block (l : Bytes) (h : 16 ≤ l.length) : ∃ b : Block, l = b.toList ++ l.drop 16 := by
  refine ⟨⟨(l.take 16).toArray, by simp; omega⟩, ?_⟩
  exact (List.take_append_drop 16 l).symm

/-- `handle_join_msg` of the program text does what the model says. -/
theorem run_handle_join_msg (hL : 16 < L) (hi : Inv s) (r : Region) (hr : s.region = some r) (fr buf : Bytes) (hf : s.frame = over fr buf) (hl : fr.length = 255) (hb : buf.length ≤ 255) (pkt : DlPkt) (hp : pkt.data = some buf)
    (er : Err) (s' : St) (pkt' : DlPkt) (ev : List Ev) (h : handleJoinMsg I.env s pkt = .ok (er, s', pkt', ev)) :
    ∃ w' buf', call (host I) Src.prog L (k + 5) "handle_join_msg" [.ptr ⟨some fs.length, "pkt", 0⟩] ⟨enc s x, pktVars e mt snr rssi port buf.length frameStart :: fs, w⟩ =
    .ok (enumVal (Err.num er), ⟨enc s' x, pktVars e mt snr rssi port buf.length frameStart :: fs, w'⟩) ∧ w'.ev = w.ev ++ ev ∧ w'.bats = w.bats ∧
      pkt' = { pkt with data := some buf' } ∧ buf'.length = buf.length ∧ s'.frame = over fr buf' := by
  have hm : s.chan.maxCount < 256 := by have := hi.chan.max_le; omega
  unfold handleJoinMsg at h
  rw [hp] at h
  dsimp only at h
  by_cases hlen : buf.length ≠ 17 ∧ buf.length ≠ 33
  · rw [if_pos hlen] at h
    cases h
    obtain ⟨f', hx⟩ := accept_length I L k s x fs w e mt snr rssi port buf.length (by omega) (by omega)
    refine ⟨w, buf, call_done find_handle_join_msg _ _ _ _ _ _ rfl (exec_split_ret _ _ _ _ _ _ hx) rfl, by simp, rfl, ?_, rfl, hf⟩
    rw [← hp]
  · rw [if_neg hlen] at h
    obtain ⟨c, hc⟩ : ∃ c : Bool, buf.length = if c then 33 else 17 := by
      by_cases h33 : buf.length = 33
      · exact ⟨true, h33⟩
      · exact ⟨false, by show buf.length = 17; omega⟩
    match buf, hf, hc, hp, hb, h with
    | m :: body, hf, hc, hp, hb, h =>
      have hfr : s.frame.length = 255 := hi.frame
      have hb0 : byteAt s.frame 0 = m := by rw [hf]; rfl
      have x1 := exec_split _ _ _ _ _ (accept_sized I L k s x fs w e mt snr rssi port ((m :: body).length : Nat) c (by rw [hc]; cases c <;> rfl))
      dsimp only at h
      by_cases hm0 : m = 0x20
      · rw [if_neg (by simpa using hm0)] at h
        have x2 := x1.trans (exec_split _ _ _ _ _ (accept_header I L k s x fs w e mt snr rssi port ((m :: body).length : Nat) c _ hfr (by rw [hb0]; exact hm0)))
        have hbl : body.length = if c then 32 else 16 := by cases c <;> simp at hc ⊢ <;> omega
        obtain ⟨b1, hb1⟩ := split_block body (by rw [hbl]; cases c <;> decide)
        have htail : ∀ (D : Bytes) (ev1 : List Ev), D.length = (m :: body).length → joinDecrypt I.env s.appKey body (decide (body.length = 32)) = .ok (D.tail, ev1) → D = m :: D.tail → decide (body.length = 32) = c →
            exec ⟨host I, call (host I) Src.prog L (k + 4), L⟩ (((Src.handle_join_msg.body.after 8).after 2).upTo 5)
              ⟨enc s x, acceptVars fs c 1 (List.replicate 4 (.uninit (some .u8))) (.int .u8 32) :: pktVars e mt snr rssi port ((m :: body).length : Nat) frameStart :: fs, w⟩ =
              .ok (.next, ⟨enc { s with frame := over fr D } x, (("ctx", [.opaque (keyInts s.appKey)]) :: acceptVars fs c 1 (List.replicate 4 (.uninit (some .u8))) (.int .u8 32)) ::
                pktVars e mt snr rssi port ((m :: body).length : Nat) frameStart :: fs, w.did w.cmac ev1⟩) →
            ∃ w' buf', call (host I) Src.prog L (k + 5) "handle_join_msg" [.ptr ⟨some fs.length, "pkt", 0⟩] ⟨enc s x, pktVars e mt snr rssi port ((m :: body).length : Nat) frameStart :: fs, w⟩ =
            .ok (enumVal (Err.num er), ⟨enc s' x, pktVars e mt snr rssi port ((m :: body).length : Nat) frameStart :: fs, w'⟩) ∧ w'.ev = w.ev ++ ev ∧ w'.bats = w.bats ∧
              pkt' = { pkt with data := some buf' } ∧ buf'.length = (m :: body).length ∧ s'.frame = over fr buf' := by
          intro D ev1 hD hdec hDt hcc hx
          have hblit : blit s.frame 0 D = some (over fr D) := by
            rw [blit_over _ _ (by rw [hfr, hD]; omega), hf]
            congr 1
            unfold over
            rw [hD, List.drop_left]
          rw [hdec] at h
          simp only [bind, Except.bind] at h
          rw [← hDt, hblit] at h
          simp only [orOob] at h
          rw [hcc] at h
          cases hj : joinFinish I.env { s with frame := over fr D } { pkt with data := some D } D c with
          | error u => rw [hj] at h; cases h
          | ok res =>
            obtain ⟨er1, s1, pk1, ev2⟩ := res
            rw [hj] at h
            cases h
            obtain ⟨v, f', w', hy, hv, hev, hbats, hpk, hfr'⟩ := accept_rest I L k { s with frame := over fr D } x fs (w.did w.cmac ev1) e mt snr rssi port c (.int .u8 32) (.opaque (keyInts s.appKey)) hL r hr hm hi.defaultDr fr D rfl hl
              (by rw [hD, hc]) _ _ _ _ _ hj
            rw [hD] at hy
            refine ⟨w', D, call_done find_handle_join_msg _ _ _ _ _ _ rfl ((x2.trans (exec_split _ _ _ _ _ hx)).trans hy) (by rw [hv]; cases er1 <;> rfl), ?_, hbats, hpk, hD, hfr'⟩
            rw [hev]
            simp [World.did]
        have hdrop : s.frame = (m :: body) ++ fr.drop (m :: body).length := hf
        cases c with
        | false =>
          have hbl' : body.length = 16 := hbl
          have hd0 : body.drop 16 = [] := List.drop_of_length_le (by omega)
          rw [hd0, List.append_nil] at hb1
          have hx := accept_decrypt I L k s x fs w e mt snr rssi port ((m :: body).length : Nat) (List.replicate 4 (.uninit (some .u8))) (.int .u8 32) (by rw [hr]; rfl) hfr m b1 (fr.drop (m :: body).length) (by rw [hdrop, hb1]; rfl)
          have hD : (m :: (I.env.aes s.appKey b1).toList).length = (m :: body).length := by rw [hb1]; simp
          have ho : [m] ++ (I.env.aes s.appKey b1).toList ++ fr.drop (m :: body).length = over fr (m :: (I.env.aes s.appKey b1).toList) := by unfold over; rw [hD]; rfl
          rw [ho] at hx
          refine htail (m :: (I.env.aes s.appKey b1).toList) [.aesNew s.appKey, .aesEncrypt b1, .aesDel] hD ?_ rfl (by rw [hbl']; rfl) hx
          unfold joinDecrypt
          rw [hbl', hb1, block_toList]
          rfl
        | true =>
          have hbl' : body.length = 32 := hbl
          obtain ⟨b2, hb2⟩ := split_block (body.drop 16) (by rw [List.length_drop]; omega)
          have hd0 : (body.drop 16).drop 16 = [] := List.drop_of_length_le (by rw [List.length_drop]; omega)
          rw [hd0, List.append_nil] at hb2
          rw [hb2] at hb1
          have hsplit : s.frame = [m] ++ b1.toList ++ (b2.toList ++ fr.drop (m :: body).length) := by
            rw [hdrop]
            generalize fr.drop (m :: body).length = z
            rw [hb1]
            simp
          have hx := accept_decrypt2 I L k s x fs w e mt snr rssi port ((m :: body).length : Nat) (List.replicate 4 (.uninit (some .u8))) (.int .u8 32) (by rw [hr]; rfl) hfr m b1 b2 (fr.drop (m :: body).length) hsplit
          have hD : (m :: ((I.env.aes s.appKey b1).toList ++ (I.env.aes s.appKey b2).toList)).length = (m :: body).length := by simp [hbl']
          have ho : [m] ++ (I.env.aes s.appKey b1).toList ++ (I.env.aes s.appKey b2).toList ++ fr.drop (m :: body).length = over fr (m :: ((I.env.aes s.appKey b1).toList ++ (I.env.aes s.appKey b2).toList)) := by
            unfold over; rw [hD]; simp
          rw [ho] at hx
          refine htail _ [.aesNew s.appKey, .aesEncrypt b1, .aesEncrypt b2, .aesDel] hD ?_ rfl (by rw [hbl']; rfl) hx
          unfold joinDecrypt
          rw [hbl', hb2, block_toList]
          have : toBlock? body = some b1 := by rw [hb1]; exact toBlock?_append _ _
          rw [this]
          rfl
      · rw [if_pos (by simpa using hm0)] at h
        cases h
        have hne : (byteAt s.frame 0).toNat ≠ 32 := by
          rw [hb0]
          intro hh
          apply hm0
          apply BitVec.eq_of_toNat_eq
          rw [hh]
          rfl
        have hx := exec_split_ret _ _ _ _ _ _ (accept_other I L k s x fs w e mt snr rssi port ((m :: body).length : Nat) c (List.replicate 4 (.uninit (some .u8))) hfr hne)
        refine ⟨w, m :: body, call_done find_handle_join_msg _ _ _ _ _ _ rfl (x1.trans hx) rfl, by simp, rfl, ?_, rfl, hf⟩
        rw [← hp]

end
end Uwan.C
