import Verif.Lemmas.CodeMsg
import Verif.Lemmas.Flow

/-! # handle_data_msg -/

namespace Uwan.C

/-- What the packet handed to the application refers to. -/
def DataAt (frame : Bytes) (d : Val) (n : Nat) (o : Option Bytes) : Prop :=
  (d = .null ∧ n = 0 ∧ o = none) ∨ ∃ pre l post, frame = pre ++ l ++ post ∧ d = fptr (pre.length : Nat) ∧ n = l.length ∧ o = some l

theorem at_split (pre l post : Bytes) : At (pre ++ l ++ post) (pre.length : Nat) l := by
  refine ⟨by omega, by simp; omega, ?_⟩
  intro i hi
  unfold byteAt
  have : (((pre.length : Nat) : Int) + (i : Int)).toNat = pre.length + i := by omega
  rw [this, List.append_assoc, List.getD_eq_getElem?_getD, List.getElem?_append_right (by omega), Nat.add_sub_cancel_left, List.getElem?_append_left hi, List.getElem?_eq_getElem hi]
  rfl

/-- A call which changes the caller's variables. -/
theorem call_done_below {ω : Type} {H : Host ω} {y : String} {f : Fun} {L k : Nat} (h : Src.prog.find y = some f) (as : List Val) (g g' : Objs) (fs fs' : List Objs) (w w' : ω) {fr fr' : Objs} {o : Out} {v : Val}
    (hb : bindParams f.params as = .ok fr) (hx : exec ⟨H, call H Src.prog L k, L⟩ f.body ⟨g, fr :: fs, w⟩ = .ok (o, ⟨g', fr' :: fs', w'⟩)) (hv : valueOf f.result o = .ok v) :
    call H Src.prog L (k + 1) y as ⟨g, fs, w⟩ = .ok (v, ⟨g', fs', w'⟩) := by
  rw [call_fun H h, hb]
  show andThen (exec _ _ _) _ = _
  rw [hx]
  show leave _ _ _ = _
  unfold leave
  rw [hv]
  rfl

section
variable (I : Input) (L k : Nat) (s : St) (x : Extra) (fs : List Objs) (w : World) (e mt rssi : Val) (F : Objs)

theorem data_rest (hL : 16 < L) (hi : Inv s) (r : Region) (hr : s.region = some r) (hq : s.mac.queue.length + x.macTail.length = 15) (hw : 15 < w.bats.length)
    (fr hdr rest : Bytes) (hh : hdr.length = 8) (hf : s.frame = over fr (hdr ++ rest)) (hl : fr.length = 255) (hb : (hdr ++ rest).length ≤ 255)
    (fo : Nat) (hfo : fo < 16) (hlen : 12 + fo ≤ (hdr ++ rest).length) (hF : DataTop fs F 8 fo noMic) (pkt : DlPkt) (hp : pkt.data = some (hdr ++ rest)) :
    ∃ (bat : Answers w.bats) (er : Err) (s' : St) (pkt' : DlPkt) (ev : List Ev) (x' : Extra) (w' : World) (F' : Objs) (d : Val) (n : Nat), dataBody I.env bat.1 s pkt (hdr ++ rest) rest fo = .ok (er, s', pkt', ev) ∧
      exec ⟨host I, call (host I) Src.prog L (k + 6), L⟩ dataLate ⟨enc s x, F :: pktVars e mt (i8Val pkt.snr) rssi pkt.fPort.toNat (hdr ++ rest).length frameStart :: fs, w⟩ =
        .ok (.ret (some (.int .i32 (Err.num er))), ⟨enc s' x', F' :: pktVars e mt (i8Val pkt'.snr) rssi pkt'.fPort.toNat (n : Nat) d :: fs, w'⟩) ∧
      w'.ev = w.ev ++ ev ∧ Kept x x' ∧ s'.mac.queue.length + x'.macTail.length = 15 ∧ DataAt s'.frame d n pkt'.data ∧ pkt'.rssi = pkt.rssi ∧ pkt'.snr = pkt.snr ∧ s'.region = s.region := by
  generalize hN : (hdr ++ rest).length = N at *
  have hrl : N = 8 + rest.length := by rw [← hN, List.length_append, hh]
  have y1 := exec_split _ _ _ _ _ (data_snr I L k s x fs w e mt rssi pkt.fPort.toNat N F pkt.snr fo hF)
  -- the commands
  obtain ⟨bat, s2, x2, w2, ev1, hcmd, hexec, hmf, hk, hq2, hev⟩ : ∃ (bat : Answers w.bats) (s2 : St) (x2 : Extra) (w2 : World) (ev1 : List Ev), dataCmds bat.1 { s with snr := pkt.snr } fo rest = .ok (s2, ev1) ∧
      exec ⟨host I, call (host I) Src.prog L (k + 6), L⟩ ((dataLate.after 1).upTo 1) ⟨enc { s with snr := pkt.snr } x, F :: pktVars e mt (i8Val pkt.snr) rssi pkt.fPort.toNat N frameStart :: fs, w⟩ =
        .ok (.next, ⟨enc s2 x2, F :: pktVars e mt (i8Val pkt.snr) rssi pkt.fPort.toNat N frameStart :: fs, w2⟩) ∧ (s2.frame = s.frame ∧ s2.region = s.region) ∧ Kept x x2 ∧
      s2.mac.queue.length + x2.macTail.length = 15 ∧ w2.ev = w.ev ++ ev1 := by
    by_cases hz : fo = 0
    · refine ⟨Answers.first hw, _, x, w, [], by unfold dataCmds; rw [if_neg (by omega)], data_cmds I L k _ x fs w e mt _ rssi _ _ F _ x w fo hfo hF (fun _ => ⟨rfl, rfl, rfl⟩) (fun h => by omega), ⟨rfl, rfl⟩, .refl x, hq, by simp⟩
    · have hi1 : Inv { s with snr := pkt.snr } := { hi with }
      have htl : (rest.take fo).length = fo := by rw [List.length_take]; omega
      have hat : At s.frame (8 : Int) (rest.take fo) := by
        have := at_split hdr (rest.take fo) (rest.drop fo ++ fr.drop N)
        rw [hh] at this
        have he : s.frame = hdr ++ rest.take fo ++ (rest.drop fo ++ fr.drop N) := by
          rw [hf]
          unfold over
          rw [hN, List.append_assoc hdr (rest.take fo), ← List.append_assoc (rest.take fo), List.take_append_drop, List.append_assoc]
        rw [he]
        exact this
      obtain ⟨bat, s2, x2, ev1, bs, hm, hc, hk, hq2⟩ := run_mac_handle_commands I L k { s with snr := pkt.snr } x (F :: pktVars e mt (i8Val pkt.snr) rssi pkt.fPort.toNat N frameStart :: fs) w .u8 hL r hi1 hr hq 8 (rest.take fo) hat
        (by omega) (by omega)
      obtain ⟨s3, ev3, hm3, -, hmf⟩ := macHandleCommands_ok bat.1 hi1 (by show s.region.isSome = true; rw [hr]; rfl) (rest.take fo)
      rw [hm] at hm3
      cases hm3
      rw [htl] at hc
      refine ⟨bat, s2, x2, _, ev1, by unfold dataCmds; rw [if_pos (by omega)]; exact hm, data_cmds I L k _ x fs w e mt _ rssi _ _ F s2 x2 _ fo hfo hF (fun h => absurd h hz) (fun _ => hc), ⟨hmf.frame, hmf.region⟩, hk, hq2, rfl⟩
  obtain ⟨hfr2, hreg2⟩ := hmf
  have y2 := y1.trans (exec_split _ _ _ _ _ hexec)
  have hr2 : s2.region.isSome = true := by rw [hreg2, hr]; rfl
  have hf2 : s2.frame = over fr (hdr ++ rest) := by rw [hfr2, hf]
  have hfl2 : s2.frame.length = 255 := by rw [hfr2]; exact hi.frame
  refine ⟨bat, ?_⟩
  by_cases hn : N = 12 + fo
  · -- no payload
    obtain ⟨F3, hF3, hx3⟩ := data_no_payload I L k s2 x2 fs w2 e mt (i8Val pkt.snr) rssi pkt.fPort.toNat N F fo hfo hF (by omega)
    obtain ⟨q, hx4⟩ := data_mic I L k s2 x2 fs w2 e mt (i8Val pkt.snr) rssi pkt.fPort.toNat F3 .null 0 hF3 hr2 fr (hdr ++ rest) hf2 hl (by omega) (by omega)
    rw [hN] at hx4
    have hbody : ∀ er s' pkt' ev2, dataFinish I.env s2 pkt none (hdr ++ rest) (8 + fo + 1) = .ok (er, s', pkt', ev2) → dataBody I.env bat.1 s pkt (hdr ++ rest) rest fo = .ok (er, s', pkt', ev1 ++ ev2) := by
      intro er s' pkt' ev2 h
      unfold dataBody dataTail
      rw [hN, if_neg (by omega)]
      simp only [hcmd, bind, Except.bind, h]
    unfold dataFinish at hbody
    rw [hN] at hbody
    simp only at hbody
    generalize calcMic I.env s2.session ((hdr ++ rest).take (N - 4)) s2.session.nwkSKey 1 true = mic at hx4 hbody
    by_cases hz : (hdr ++ rest).drop (N - 4) = mic.1
    · rw [if_pos hz] at hx4
      rw [if_neg (by simpa using hz)] at hbody
      obtain ⟨F5, hx5⟩ := data_plain I L k s2 x2 fs (w2.did q mic.2) e mt (i8Val pkt.snr) rssi pkt.fPort.toNat N _ _ .null (.inl rfl) (data_put fs F3 _ (mic.1.map byteVal) _ _ hF3)
      refine ⟨.no, _, _, _, x2, _, F5, .null, 0, hbody _ _ _ _ rfl, ((y2.trans (exec_split _ _ _ _ _ hx3)).trans (exec_split _ _ _ _ _ hx4)).trans hx5, ?_, hk, hq2, .inl ⟨rfl, rfl, rfl⟩, rfl, rfl, hreg2⟩
      simp [World.did, hev]
    · rw [if_neg hz] at hx4
      rw [if_pos (by simpa using hz)] at hbody
      refine ⟨.msgMic, _, _, _, x2, _, _, frameStart, N, hbody _ _ _ _ rfl, (y2.trans (exec_split _ _ _ _ _ hx3)).trans (exec_split_ret _ _ _ _ _ _ hx4), ?_, hk, hq2, .inr ⟨[], hdr ++ rest, fr.drop N, ?_, rfl, hN.symm, hp⟩, rfl, rfl, hreg2⟩
      · simp [World.did, hev]
      · rw [hf2]; unfold over; rw [hN]; rfl
  · -- payload
    obtain ⟨j, hj⟩ : ∃ j, N = 12 + fo + (j + 1) := ⟨N - 13 - fo, by omega⟩
    obtain ⟨po, more, hpm⟩ : ∃ po more, rest.drop fo = po :: more := by
      have : (rest.drop fo).length = j + 5 := by rw [List.length_drop]; omega
      match rest.drop fo, this with
      | po :: more, _ => exact ⟨po, more, rfl⟩
    have hmore : more.length = j + 4 := by
      have : (rest.drop fo).length = j + 5 := by rw [List.length_drop]; omega
      rw [hpm, List.length_cons] at this
      omega
    have hsplit : s2.frame = (hdr ++ rest.take fo ++ [po]) ++ more.take j ++ (more.drop j ++ fr.drop N) := by
      rw [hf2]
      unfold over
      rw [hN]
      have h1 : rest = rest.take fo ++ ([po] ++ (more.take j ++ more.drop j)) := by
        rw [List.take_append_drop]
        show rest = rest.take fo ++ po :: more
        rw [← hpm, List.take_append_drop]
      conv => lhs; rw [h1]
      simp only [List.append_assoc]
    have hprel : (hdr ++ rest.take fo ++ [po]).length = 9 + fo := by
      rw [List.length_append, List.length_append, List.length_take, hh]
      simp
      omega
    have hjl : (more.take j).length = j := by rw [List.length_take]; omega
    have hpo : byteAt s2.frame (8 + fo) = po := by
      rw [hsplit]
      unfold byteAt
      have ht : ((8 : Int) + (fo : Int)).toNat = 8 + fo := by omega
      have hl8 : (hdr ++ rest.take fo).length = 8 + fo := by rw [List.length_append, List.length_take, hh]; omega
      rw [ht, List.append_assoc, List.append_assoc, List.getD_eq_getElem?_getD, List.getElem?_append_right (by omega), hl8, Nat.sub_self]
      rfl
    obtain ⟨F3, hF3, hx3⟩ := data_payload I L k s2 x2 fs w2 e mt (i8Val pkt.snr) rssi pkt.fPort.toNat N F hfl2 fo hfo hF j (by omega) (by omega) po hpo
    obtain ⟨q, hx4⟩ := data_mic I L k s2 x2 fs w2 e mt (i8Val pkt.snr) rssi po.toNat F3 _ j hF3 hr2 fr (hdr ++ rest) hf2 hl (by omega) (by omega)
    rw [hN] at hx4
    have hbody : ∀ er s' pkt' ev2, dataFinish I.env s2 { pkt with fPort := po } (some (more.take j)) (hdr ++ rest) (8 + fo + 1) = .ok (er, s', pkt', ev2) → dataBody I.env bat.1 s pkt (hdr ++ rest) rest fo = .ok (er, s', pkt', ev1 ++ ev2) := by
      intro er s' pkt' ev2 h
      unfold dataBody dataTail
      rw [hN, if_pos (by omega), hpm]
      simp only [hcmd, bind, Except.bind]
      rw [show N - (12 + fo) - 1 = j from by omega]
      simp only [h]
    unfold dataFinish at hbody
    rw [hN] at hbody
    simp only at hbody
    generalize calcMic I.env s2.session ((hdr ++ rest).take (N - 4)) s2.session.nwkSKey 1 true = mic at hx4 hbody
    by_cases hz : (hdr ++ rest).drop (N - 4) = mic.1
    · rw [if_pos hz] at hx4
      rw [if_neg (by simpa using hz)] at hbody
      have y4 := (y2.trans (exec_split _ _ _ _ _ hx3)).trans (exec_split _ _ _ _ _ hx4)
      have hF4 := data_put fs F3 _ (mic.1.map byteVal) _ _ hF3
      by_cases hj0 : j = 0
      · subst hj0
        obtain ⟨F5, hx5⟩ := data_plain I L k s2 x2 fs (w2.did q mic.2) e mt (i8Val pkt.snr) rssi po.toNat N _ _ _ (.inr ⟨_, rfl⟩) hF4
        rw [List.take_zero] at hbody
        refine ⟨.no, _, _, _, x2, _, F5, _, 0, hbody _ _ _ _ rfl, y4.trans hx5, ?_, hk, hq2, .inr ⟨hdr ++ rest.take fo ++ [po], [], more ++ fr.drop N, ?_, by rw [hprel]; rfl, rfl, rfl⟩, rfl, rfl, hreg2⟩
        · simp [World.did, hev]
        · show s2.frame = _
          rw [hsplit]; simp
      · obtain ⟨F5, hx5⟩ := data_crypt I L k s2 x2 fs (w2.did q mic.2) e mt (i8Val pkt.snr) rssi N _ hL hr2 _ (9 + fo) _ _ _ hsplit hprel (by omega) (by omega) po (by rw [hjl]; exact hF4) _ rfl
        have hne : ∃ b l, more.take j = b :: l := by
          match more.take j, hjl with
          | b :: l, _ => exact ⟨b, l, rfl⟩
          | [], h => simp at h; omega
        obtain ⟨b, l, hbl⟩ := hne
        have hel := encryptPayload_length I.env s2.session (more.take j) (if po = 0 then s2.session.nwkSKey else s2.session.appSKey) 1
        rw [hbl] at hbody
        simp only at hbody
        rw [← hbl] at hbody
        generalize encryptPayload I.env s2.session (more.take j) (if po = 0 then s2.session.nwkSKey else s2.session.appSKey) 1 = en at hx5 hbody hel
        have hblit : blit s2.frame (8 + fo + 1) en.1 = some ((hdr ++ rest.take fo ++ [po]) ++ en.1 ++ (more.drop j ++ fr.drop N)) := by
          unfold blit
          rw [if_pos (by rw [hel, hjl, hfl2]; omega), hsplit]
          have e1 : 8 + fo + 1 = (hdr ++ rest.take fo ++ [po]).length := by rw [hprel]; omega
          have e2 : 8 + fo + 1 + en.1.length = ((hdr ++ rest.take fo ++ [po]) ++ more.take j).length := by rw [List.length_append, hel, hprel]; omega
          rw [e2, List.drop_left, e1, List.append_assoc _ (more.take j), List.take_left]
        rw [hblit] at hbody
        simp only [orOob, bind, Except.bind] at hbody
        rw [hjl] at hx5
        refine ⟨.no, _, _, _, x2, _, F5, _, j, hbody _ _ _ _ rfl, y4.trans hx5, ?_, hk, hq2, .inr ⟨hdr ++ rest.take fo ++ [po], en.1, more.drop j ++ fr.drop N, rfl, by rw [hprel], by rw [hel, hjl], rfl⟩, rfl, rfl, hreg2⟩
        simp [World.did, hev]
    · rw [if_neg hz] at hx4
      rw [if_pos (by simpa using hz)] at hbody
      refine ⟨.msgMic, _, _, _, x2, _, _, frameStart, N, hbody _ _ _ _ rfl, (y2.trans (exec_split _ _ _ _ _ hx3)).trans (exec_split_ret _ _ _ _ _ _ hx4), ?_, hk, hq2, .inr ⟨[], hdr ++ rest, fr.drop N, ?_, rfl, hN.symm, hp⟩, rfl, rfl, hreg2⟩
      · simp [World.did, hev]
      · rw [hf2]; unfold over; rw [hN]; rfl

/-- `handle_data_msg` of the program text does what the model says. -/
theorem run_handle_data_msg (hL : 16 < L) (hi : Inv s) (r : Region) (hr : s.region = some r) (hq : s.mac.queue.length + x.macTail.length = 15) (hw : 15 < w.bats.length)
    (fr buf : Bytes) (hf : s.frame = over fr buf) (hl : fr.length = 255) (hb : buf.length ≤ 255) (pkt : DlPkt) (hp : pkt.data = some buf) :
    ∃ (bat : Answers w.bats) (er : Err) (s' : St) (pkt' : DlPkt) (ev : List Ev) (x' : Extra) (w' : World) (d : Val) (n : Nat), handleDataMsg I.env bat.1 s pkt = .ok (er, s', pkt', ev) ∧
      call (host I) Src.prog L (k + 7) "handle_data_msg" [.ptr ⟨some fs.length, "pkt", 0⟩] ⟨enc s x, pktVars e mt (i8Val pkt.snr) rssi pkt.fPort.toNat buf.length frameStart :: fs, w⟩ =
        .ok (enumVal (Err.num er), ⟨enc s' x', pktVars e mt (i8Val pkt'.snr) rssi pkt'.fPort.toNat (n : Nat) d :: fs, w'⟩) ∧
      w'.ev = w.ev ++ ev ∧ Kept x x' ∧ s'.mac.queue.length + x'.macTail.length = 15 ∧ DataAt s'.frame d n pkt'.data ∧ pkt'.rssi = pkt.rssi ∧ pkt'.snr = pkt.snr ∧ s'.region = s.region := by
  have hsame : ∀ s' : St, s'.frame = s.frame → DataAt s'.frame frameStart buf.length pkt.data := by
    intro s' h
    exact .inr ⟨[], buf, fr.drop buf.length, by rw [h, hf]; rfl, rfl, rfl, hp⟩
  have hval : ∀ er : Err, valueOf (some .u32) (.ret (some (.int .i32 (Err.num er)))) = .ok (enumVal (Err.num er)) := by intro er; cases er <;> rfl
  have hun : ∀ bat, handleDataMsg I.env bat s pkt = handleDataMsg I.env bat s pkt := fun _ => rfl
  conv at hun => intro bat; rhs; unfold handleDataMsg
  rw [hp] at hun
  dsimp only at hun
  by_cases hlen : buf.length < 12
  · refine ⟨Answers.first hw, .msgLen, s, pkt, [], x, w, frameStart, buf.length, by rw [hun, if_pos hlen],
      call_done find_handle_data_msg _ _ _ _ _ _ rfl (exec_split_ret _ _ _ _ _ _ (data_short I L k s x fs w e mt _ rssi _ buf.length (by omega) (by omega))) (hval .msgLen), by simp, .refl x, hq, hsame s rfl, rfl, rfl, rfl⟩
  · match buf, hf, hb, hp, hlen, hsame, hun with
    | m :: a0 :: a1 :: a2 :: a3 :: ctrl :: c0 :: c1 :: rest, hf, hb, hp, hlen, hsame, hun =>
      obtain ⟨N, hN⟩ : ∃ N, (m :: a0 :: a1 :: a2 :: a3 :: ctrl :: c0 :: c1 :: rest).length = N := ⟨_, rfl⟩
      have hcons : m :: a0 :: a1 :: a2 :: a3 :: ctrl :: c0 :: c1 :: rest = [m, a0, a1, a2, a3, ctrl, c0, c1] ++ rest := rfl
      simp only [hN] at hun hlen hb hsame ⊢
      have hfr := hi.frame
      have b0 : byteAt s.frame 0 = m := by rw [hf]; rfl
      have y1 := exec_split _ _ _ _ _ (data_sized I L k s x fs w e mt (i8Val pkt.snr) rssi pkt.fPort.toNat N (by omega) (by omega))
      simp only [if_neg hlen] at hun
      by_cases hm : (m &&& 3) = 0
      · simp only [if_neg (show ¬ (m &&& 3) ≠ 0 from fun h => h hm)] at hun
        have y2 := y1.trans (exec_split _ _ _ _ _ (data_header I L k s x fs w e mt (i8Val pkt.snr) rssi pkt.fPort.toNat N hfr m b0 hm))
        obtain ⟨t, ht⟩ : ∃ t : Byte, (m >>> 5) &&& 7 = t := ⟨_, rfl⟩
        have z3 := data_type I L k s x fs w e mt (i8Val pkt.snr) rssi pkt.fPort.toNat N m t ht
        simp only [ht] at hun
        by_cases htt : t ≠ 3 ∧ t ≠ 5
        · rw [if_pos htt, if_pos htt] at z3
          simp only [if_pos htt] at hun
          exact ⟨Answers.first hw, .msgMhdr, s, pkt, [], x, w, frameStart, N, hun _, call_done find_handle_data_msg _ _ _ _ _ _ rfl (y2.trans (exec_split_ret _ _ _ _ _ _ z3)) (hval .msgMhdr), by simp, .refl x, hq, hsame s rfl, rfl, rfl, rfl⟩
        · rw [if_neg htt, if_neg htt] at z3
          simp only [if_neg htt] at hun
          have y3 := y2.trans (exec_split _ _ _ _ _ z3)
          have hs1 : (markAck s t).frame = s.frame ∧ (markAck s t).region = s.region ∧ (markAck s t).mac = s.mac ∧ Inv (markAck s t) := by
            unfold markAck
            split
            · exact ⟨rfl, rfl, rfl, { hi with }⟩
            · exact ⟨rfl, rfl, rfl, hi⟩
          obtain ⟨f1, r1, q1, i1⟩ := hs1
          generalize markAck s t = s1 at *
          rw [← f1] at hf hfr
          have z4 := data_addr I L k s1 x fs w e mt (i8Val pkt.snr) rssi pkt.fPort.toNat N (.int .u8 t.toNat) (.int .u8 m.toNat) hfr a0 a1 a2 a3 (by rw [hf]; rfl) (by rw [hf]; rfl) (by rw [hf]; rfl) (by rw [hf]; rfl)
          by_cases had : s1.session.devAddr ≠ or32 a0 a1 a2 a3
          · rw [if_pos had] at z4
            simp only [if_pos had] at hun
            exact ⟨Answers.first hw, .devAddr, s1, pkt, _, x, _, frameStart, N, hun _, call_done find_handle_data_msg _ _ _ _ _ _ rfl (y3.trans (exec_split_ret _ _ _ _ _ _ z4)) (hval .devAddr), rfl, .refl x, by rw [q1]; exact hq, hsame s1 f1, rfl, rfl, r1⟩
          · rw [if_neg had] at z4
            simp only [if_neg had] at hun
            have y4 := y3.trans (exec_split _ _ _ _ _ z4)
            obtain ⟨fo, hfo⟩ : ∃ fo : Byte, ctrl &&& 0xf = fo := ⟨_, rfl⟩
            have hfo16 : fo.toNat < 16 := by
              rw [← hfo, BitVec.toNat_and]
              have := @Nat.and_le_right ctrl.toNat (0xf : Byte).toNat
              have h15 : (0xf : Byte).toNat = 15 := rfl
              omega
            have z5 := data_control I L k s1 x fs (w.did w.cmac (shiftMark a3)) e mt (i8Val pkt.snr) rssi pkt.fPort.toNat N (.int .u8 t.toNat) (.int .u8 m.toNat) (.int .u32 (or32 a0 a1 a2 a3).toNat) hfr (by omega) (by omega) ctrl fo (by rw [hf]; rfl) hfo
            simp only [hfo] at hun
            by_cases hsz : N < 12 + fo.toNat
            · rw [if_pos (by omega)] at z5
              simp only [if_pos hsz] at hun
              exact ⟨Answers.first hw, .msgLen, s1, pkt, _, x, _, frameStart, N, hun _, call_done find_handle_data_msg _ _ _ _ _ _ rfl (y4.trans (exec_split_ret _ _ _ _ _ _ z5)) (hval .msgLen), rfl, .refl x, by rw [q1]; exact hq, hsame s1 f1, rfl, rfl, r1⟩
            · rw [if_neg (by omega)] at z5
              simp only [if_neg hsz] at hun
              have y5 := y4.trans (exec_split _ _ _ _ _ z5)
              have y6 := y5.trans (exec_split _ _ _ _ _ (data_words I L k s1 x fs _ e mt (i8Val pkt.snr) rssi pkt.fPort.toNat N _ _ _ _ _ hfr c0 c1 (by rw [hf]; rfl) (by rw [hf]; rfl)))
              obtain ⟨pre, hpre, z7⟩ := data_count I L k s1 x fs (w.did w.cmac (shiftMark a3)) e mt (i8Val pkt.snr) rssi pkt.fPort.toNat N (.int .u8 t.toNat) (.int .u8 m.toNat) (.int .u32 (or32 a0 a1 a2 a3).toNat) fo.toNat ctrl.toNat (or16 c0 c1) _ rfl
              cases hcnt : nextFCntDown s1.session.fCntDown (or16 c0 c1) with
              | none =>
                rw [hcnt] at z7
                simp only [hcnt] at hun
                exact ⟨Answers.first hw, .fcnt, s1, pkt, _, x, _, frameStart, N, hun _, call_done find_handle_data_msg _ _ _ _ _ _ rfl (y6.trans (exec_split_ret _ _ _ _ _ _ z7)) (hval .fcnt), rfl, .refl x, by rw [q1]; exact hq, hsame s1 f1, rfl, rfl, r1⟩
              | some dn =>
                rw [hcnt] at z7
                simp only [hcnt] at hun
                have y7 := y6.trans (exec_split _ _ _ _ _ z7)
                simp only [Option.getD_some] at y7
                obtain ⟨bat, er, s', pkt', ev, x', w', F', d, n, hb1, hx, hev, hk, hq', hda, hrs, hsn, hreg⟩ := data_rest I L k { s1 with session := { s1.session with fCntDown := dn } } x fs (w.did w.cmac (shiftMark a3)) e mt rssi _ hL { i1 with } r
                  (by show s1.region = _; rw [r1, hr]) (by show s1.mac.queue.length + _ = _; rw [q1]; exact hq) hw fr [m, a0, a1, a2, a3, ctrl, c0, c1] rest rfl hf hl (by rw [← hcons, hN]; exact hb) fo.toNat hfo16 (by rw [← hcons, hN]; omega)
                  (data_top fs pre hpre _ _ _ _ _ _) pkt hp
                rw [← hcons] at hb1 hx
                rw [hN] at hx
                refine ⟨bat, er, s', pkt', shiftMark a3 ++ ev, x', w', d, n, ?_, call_done_below find_handle_data_msg _ _ _ _ _ _ _ rfl (y7.trans hx) (hval er), ?_, hk, hq', hda, hrs, hsn, hreg.trans r1⟩
                · rw [hun]
                  simp only [hb1, bind, Except.bind]
                · rw [hev]; simp [World.did]
      · simp only [if_pos hm] at hun
        exact ⟨Answers.first hw, .msgMhdr, s, pkt, [], x, w, frameStart, N, hun _, call_done find_handle_data_msg _ _ _ _ _ _ rfl (y1.trans (exec_split_ret _ _ _ _ _ _ (data_major I L k s x fs w e mt _ rssi _ N hfr m b0 hm))) (hval .msgMhdr), by simp, .refl x, hq, hsame s rfl, rfl, rfl, rfl⟩
    | [], _, _, _, hlen, _, _ => simp at hlen
    | [_], _, _, _, hlen, _, _ => simp at hlen
    | [_, _], _, _, _, hlen, _, _ => simp at hlen
    | [_, _, _], _, _, _, hlen, _, _ => simp at hlen
    | [_, _, _, _], _, _, _, hlen, _, _ => simp at hlen
    | [_, _, _, _, _], _, _, _, hlen, _, _ => simp at hlen
    | [_, _, _, _, _, _], _, _, _, hlen, _, _ => simp at hlen
    | [_, _, _, _, _, _, _], _, _, _, hlen, _, _ => simp at hlen

end
end Uwan.C
