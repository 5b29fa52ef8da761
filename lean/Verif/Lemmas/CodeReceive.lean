import Verif.Lemmas.CodeDownlink
import Verif.Lemmas.CodeSend
import Verif.Code.Run

/-! # handle_downlink and evt_handler -/

namespace Uwan.C

theorem join_keeps_mac {E : Env} {s : St} {pkt : DlPkt} {buf : Bytes} {e : Err} {s' : St} {pkt' : DlPkt} {ev : List Ev} (h : JoinCase E s pkt buf e s' pkt' ev) : s'.mac = s.mac ∧ s'.region = s.region := by
  cases h with
  | len => exact ⟨rfl, rfl⟩
  | mhdr => exact ⟨rfl, rfl⟩
  | mic => exact ⟨rfl, rfl⟩
  | good blks fr J c =>
    constructor
    · show (joinRxParams { s with frame := fr } J.dl J.dly).mac = s.mac
      rw [joinRx_mac]
    · show (joinRxParams { s with frame := fr } J.dl J.dly).region = s.region
      rw [joinRxParams_region]

section
variable (I : Input) (L k : Nat) (s : St) (x : Extra) (fs : List Objs) (w : World)

/-- `handle_downlink` of the program text does what the model says. -/
theorem run_handle_downlink (hL : 16 < L) (hi : Inv s) (r : Region) (hr : s.region = some r) (hq : s.mac.queue.length + x.macTail.length = 15) (hw : 15 < w.bats.length) (t : Ty) (ht : t = .i32) (er : Err) :
    ∃ (bat : Answers w.bats) (s' : St) (ev : List Ev) (x' : Extra) (w' : World), handleDownlink I.env (I.oracle bat.1) s er = .ok (s', ev) ∧
      call (host I) Src.prog L (k + 8) "handle_downlink" [.int t (Err.num er : Nat)] ⟨enc s x, fs, w⟩ = .ok (.null, ⟨enc s' x', fs, w'⟩) ∧
      w'.ev = w.ev ++ ev ∧ Kept x x' ∧ s'.mac.queue.length + x'.macTail.length = 15 := by
  have hrs : s.region.isSome = true := by rw [hr]; rfl
  have hb : bindParams Src.handle_downlink.params [.int t (Err.num er : Nat)] = .ok [("err", [.int .u32 (Err.num er : Nat)])] := by
    subst ht
    cases er <;> rfl
  have y1 := exec_split _ _ _ _ _ (downlink_open I L k s x fs w (Err.num er))
  by_cases he : er = .no
  · subst he
    have hfl : (over s.frame (I.rx.take 255)).length = 255 := by rw [over_length _ _ (by rw [hi.frame, List.length_take]; omega)]; exact hi.frame
    have hbl : (I.rx.take 255).length ≤ 255 := by rw [List.length_take]; omega
    have hblit : blit s.frame 0 (I.rx.take 255) = some (over s.frame (I.rx.take 255)) := blit_over _ _ (by rw [hi.frame]; exact hbl)
    have y2 := y1.trans (exec_split _ _ _ _ _ (downlink_read I L k s x fs w hrs hi.frame))
    obtain ⟨s1, hs1⟩ : ∃ s1, s1 = { s with frame := over s.frame (I.rx.take 255) } := ⟨_, rfl⟩
    have i1 : Inv s1 := by rw [hs1]; exact { hi with frame := hfl }
    have f1 : s1.frame = over s.frame (I.rx.take 255) := by rw [hs1]
    have r1 : s1.region = some r := by rw [hs1]; exact hr
    have q1 : s1.mac.queue.length + x.macTail.length = 15 := by rw [hs1]; exact hq
    obtain ⟨b, hhd⟩ : ∃ b, s1.frame.head? = some b := by
      match hm : s1.frame, i1.frame with
      | b :: _, _ => exact ⟨b, rfl⟩
      | [], h => simp [hm] at h
    have hb0 : byteAt s1.frame 0 = b := by
      match hm : s1.frame, hhd with
      | c :: _, h => injection h
    have hmodel : ∀ bat e1 s' pkt' ev, (if s1.joinState then handleJoinMsg I.env s1 ⟨some (I.rx.take 255), 0, I.rssi, I.snr⟩ else handleDataMsg I.env bat s1 ⟨some (I.rx.take 255), 0, I.rssi, I.snr⟩) = .ok (e1, s', pkt', ev) →
        handleDownlink I.env (I.oracle bat) s .no = .ok ({ s' with joinState := false }, [.readPacket, .sleep] ++ ev ++ [.downlink e1 ((b >>> 5) &&& 7) pkt']) := by
      intro bat e1 s' pkt' ev h
      unfold handleDownlink
      rw [if_pos rfl]
      simp only [hblit, orOob, bind, Except.bind]
      have hh : (over s.frame (I.rx.take 255)).head? = some b := by rw [← f1]; exact hhd
      simp only [hh]
      rw [hs1] at h
      dsimp only at h
      by_cases hj : s.joinState = true
      · rw [if_pos hj] at h ⊢
        rw [h]
      · rw [if_neg hj] at h ⊢
        rw [h]
    rw [← hs1] at y2
    cases hj : s1.joinState with
    | true =>
      rw [hj] at hmodel
      simp only [if_true] at hmodel
      obtain ⟨e1, s2, pkt', ev, hok, hcase⟩ := handleJoinMsg_cases I.env i1 (by rw [r1]; rfl) ⟨some (I.rx.take 255), 0, I.rssi, I.snr⟩ _ rfl
      obtain ⟨hmac, hreg⟩ := join_keeps_mac hcase
      obtain ⟨w2, buf', hc, hev, -, hpk, hbl', hf'⟩ := run_handle_join_msg I L (k + 2) s1 x fs ((w.say .readPacket).say .sleep) (.int .u32 0) (.int .u32 ((b >>> 5) &&& 7).toNat) (i8Val I.snr) (.int .i16 I.rssi.toInt) 0
        hL i1 r r1 s.frame (I.rx.take 255) f1 hi.frame hbl ⟨some (I.rx.take 255), 0, I.rssi, I.snr⟩ rfl e1 s2 pkt' ev hok
      have y3 := y2.trans (exec_split _ _ _ _ _ (downlink_join I L k s1 x fs _ s2 x w2 e1 _ _ _ b _ i1.frame hb0 rfl hj 0 _ frameStart hc))
      have hda : DataAt s2.frame frameStart (I.rx.take 255).length pkt'.data := by
        rw [hpk]
        exact .inr ⟨[], buf', s.frame.drop buf'.length, hf', rfl, hbl'.symm, rfl⟩
      have z := downlink_end I L k s2 x fs w2 (by rw [hreg, r1]; rfl) e1 ((b >>> 5) &&& 7) pkt' frameStart (I.rx.take 255).length hda
      rw [hpk] at z
      have y4 := y3.trans z
      refine ⟨Answers.first hw, _, _, x, _, hmodel _ _ _ _ _ hok, call_done find_handle_downlink _ _ _ _ _ _ hb y4 rfl, ?_, .refl x, ?_⟩
      · show (w2.say _).ev = _
        simp [World.say, hev, hpk]
      · show s2.mac.queue.length + _ = _
        rw [hmac]; exact q1
    | false =>
      rw [hj] at hmodel
      simp only [Bool.false_eq_true, if_false] at hmodel
      obtain ⟨bat, e1, s2, pkt', ev, x2, w2, d, n, hok, hc, hev, hk, hq2, hda, hrss, hsnr, hreg⟩ := run_handle_data_msg I L k s1 x fs ((w.say .readPacket).say .sleep) (.int .u32 0) (.int .u32 ((b >>> 5) &&& 7).toNat) (.int .i16 I.rssi.toInt)
        hL i1 r r1 q1 hw s.frame (I.rx.take 255) f1 hi.frame hbl ⟨some (I.rx.take 255), 0, I.rssi, I.snr⟩ rfl
      have y3 := y2.trans (exec_split _ _ _ _ _ (downlink_data I L k s1 x fs _ s2 x2 w2 e1 _ _ _ b _ i1.frame hb0 rfl hj _ _ _ _ hc))
      have hr2 : s2.region.isSome = true := by rw [hreg, r1]; rfl
      have z := downlink_end I L k s2 x2 fs w2 hr2 e1 ((b >>> 5) &&& 7) pkt' d n hda
      rw [hrss] at z
      have y4 := y3.trans z
      refine ⟨bat, _, _, x2, _, hmodel _ _ _ _ _ hok, call_done find_handle_downlink _ _ _ _ _ _ hb y4 rfl, ?_, hk, hq2⟩
      show (w2.say _).ev = _
      simp [World.say, hev]
  · have hn0 : Err.num er ≠ 0 := by cases er <;> simp_all [Err.num]
    have hlt : Err.num er < 12 := by cases er <;> decide
    have y2 := y1.trans (exec_split _ _ _ _ _ (downlink_none I L k s x fs w hrs (Err.num er) hn0 hlt))
    have y3 := y2.trans (downlink_end I L k s x fs (w.say .sleep) hrs er 0 ⟨none, 0, 0, 0⟩ .null 0 (.inl ⟨rfl, rfl, rfl⟩))
    refine ⟨Answers.first hw, _, _, x, _, by unfold handleDownlink; rw [if_neg he], call_done find_handle_downlink _ _ _ _ _ _ hb y3 rfl, ?_, .refl x, hq⟩
    simp [World.say]

end
end Uwan.C
