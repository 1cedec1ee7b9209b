import Verif.Lemmas.Contents
/-
  Decoding two inputs that agree where it looks.
-/
namespace Ntlm

open Spec

theorem byteAt_agree {i j : List UInt8} {n k : Nat} (h : i.take n = j.take n) (hk : k < n) : byteAt i k = byteAt j k := by
  have := congrArg (fun l => l[k]?) h
  simp only [List.getElem?_take, hk, if_true] at this
  simp only [byteAt, List.getD_eq_getElem?_getD, this]

theorem u16At_agree {i j : List UInt8} {n k : Nat} (h : i.take n = j.take n) (hk : k + 2 ≤ n) : u16At i k = u16At j k := by
  rw [u16At, u16At, byteAt_agree h (by omega), byteAt_agree h (by omega)]

theorem u32At_agree {i j : List UInt8} {n k : Nat} (h : i.take n = j.take n) (hk : k + 4 ≤ n) : u32At i k = u32At j k := by
  rw [u32At, u32At, u16At_agree h (by omega), u16At_agree h (by omega)]

theorem bytesAt_agree {i j : List UInt8} {n k m : Nat} (h : i.take n = j.take n) (hk : k + m ≤ n) :
    bytesAt i k m = bytesAt j k m := by
  have := congrArg (fun l => (l.drop k).take m) h
  simp only [List.drop_take, List.take_take] at this
  rwa [show min m (n - k) = m by omega] at this

theorem take_agree {i j : List UInt8} {n k : Nat} (h : i.take n = j.take n) (hk : k ≤ n) : i.take k = j.take k := by
  have := congrArg (List.take k) h
  simpa only [List.take_take, show min k n = k by omega] using this

theorem fieldAt_agree {i j : List UInt8} {n p : Nat} (h : i.take n = j.take n) (hp : p + 8 ≤ n) :
    fieldAt i p = fieldAt j p := by
  simp only [fieldAt, u16At_agree h (show p + 2 ≤ n by omega), u16At_agree h (show p + 2 + 2 ≤ n by omega),
    u32At_agree h (show p + 4 + 4 ≤ n by omega)]

theorem flagsAt_agree {i j : List UInt8} {n p : Nat} (h : i.take n = j.take n) (hp : p + 4 ≤ n) :
    flagsAt i p = flagsAt j p := by
  simp only [flagsAt, u32At_agree h hp]

theorem versionSize_agree {i j : List UInt8} {n p : Nat} (h : i.take n = j.take n) (hp : p + 4 ≤ n) :
    versionSize i p = versionSize j p := by
  simp only [versionSize, u32At_agree h hp]

theorem versionAt_agree {i j : List UInt8} {n p s : Nat} (h : i.take n = j.take n) (hp : p + 4 ≤ n)
    (hs : s + versionSize i p ≤ n) : versionAt i p s = versionAt j p s := by
  unfold versionAt
  rw [u32At_agree h hp]
  split
  · rename_i hb
    have : versionSize i p = 8 := by simp [versionSize, u32At_agree h hp, hb]
    rw [byteAt_agree h (show s < n by omega), byteAt_agree h (show s + 1 < n by omega),
      u16At_agree h (show s + 2 + 2 ≤ n by omega)]
  · rfl

theorem versionBlockOk_agree {i j : List UInt8} {n p s : Nat} (hl : i.length = j.length) (h : i.take n = j.take n)
    (hp : p + 4 ≤ n) (hs : s + versionSize i p ≤ n) : versionBlockOk i p s ↔ versionBlockOk j p s := by
  unfold versionBlockOk flagAt
  rw [u32At_agree h hp]
  by_cases hb : (u32At j p).testBit 25 = true
  · have : versionSize i p = 8 := by simp [versionSize, u32At_agree h hp, hb]
    rw [hl, byteAt_agree h (show s + 4 < n by omega), byteAt_agree h (show s + 5 < n by omega),
      byteAt_agree h (show s + 6 < n by omega), byteAt_agree h (show s + 7 < n by omega)]
  · simp [hb]

theorem hasHeader_agree {i j : List UInt8} {n t s : Nat} (hl : i.length = j.length) (h : i.take n = j.take n)
    (hn : 12 ≤ n) : hasHeader i t s ↔ hasHeader j t s := by
  unfold hasHeader
  rw [hl, take_agree h (by omega), u32At_agree h (by omega)]

theorem outOfRange_agree {i j : List UInt8} {n p : Nat} (hl : i.length = j.length) (h : i.take n = j.take n)
    (hp : p + 8 ≤ n) : outOfRange i p ↔ outOfRange j p := by
  unfold outOfRange
  rw [hl, u16At_agree h (by omega), u32At_agree h (by omega)]

theorem getDataIf_agree {α : Type} [Wire α] (cfg : Cfg) {i j : List UInt8} {n p : Nat} {c : Bool} (hl : i.length = j.length)
    (h : i.take n = j.take n) (hp : p + 8 ≤ n) (hb : c = true → fieldBytes i p = fieldBytes j p) :
    ((fieldAt i p).getDataIf cfg i c : Except PErr (Option α)) = (fieldAt j p).getDataIf cfg j c := by
  have hu : u16At i p = u16At j p := u16At_agree h (by omega)
  have ho := outOfRange_agree hl h hp
  cases c with
  | false => rw [getDataIf_empty cfg i p false (.inl rfl), getDataIf_empty cfg j p false (.inl rfl)]
  | true =>
    by_cases h0 : u16At i p = 0
    · rw [getDataIf_empty cfg i p true (.inr h0), getDataIf_empty cfg j p true (.inr (hu ▸ h0))]
    · by_cases hr : outOfRange i p
      · rw [getDataIf_out cfg i p hr, getDataIf_out cfg j p (ho.mp hr)]
      · rw [getDataIf_in cfg i p h0 hr, getDataIf_in cfg j p (hu ▸ h0) (fun x => hr (ho.mpr x)), hb rfl]

theorem getManyIf_agree (cfg : Cfg) {i j : List UInt8} {n p : Nat} (hl : i.length = j.length)
    (h : i.take n = j.take n) (hp : p + 8 ≤ n) (hb : fieldBytes i p = fieldBytes j p) :
    ((fieldAt i p).getManyIf cfg i true : Except PErr (List AvPair)) = (fieldAt j p).getManyIf cfg j true := by
  have hu : u16At i p = u16At j p := u16At_agree h (by omega)
  have ho := outOfRange_agree hl h hp
  by_cases h0 : u16At i p = 0
  · rw [getManyIf_empty cfg i p h0, getManyIf_empty cfg j p (hu ▸ h0)]
  · by_cases hr : outOfRange i p
    · rw [getManyIf_out cfg i p hr, getManyIf_out cfg j p (ho.mp hr)]
    · rw [getManyIf_in cfg i p h0 hr, getManyIf_in cfg j p (hu ▸ h0) (fun x => hr (ho.mpr x)), hb]

theorem negotiate_local (cfg : Cfg) (i j : List UInt8) (hl : i.length = j.length)
    (h : i.take (32 + versionSize i 12) = j.take (32 + versionSize i 12)) (h1 : fieldBytes i 16 = fieldBytes j 16)
    (h2 : fieldBytes i 24 = fieldBytes j 24) :
    (Wire.deserialize cfg : Parser Negotiate) i = Wire.deserialize cfg j := by
  have hH : hasHeader i 1 32 ↔ hasHeader j 1 32 := hasHeader_agree hl h (by omega)
  have hV : versionBlockOk i 12 32 ↔ versionBlockOk j 12 32 := versionBlockOk_agree hl h (by omega) (by omega)
  by_cases hc : hasHeader i 1 32 ∧ versionBlockOk i 12 32
  · rw [negotiate_at cfg i hc.1 hc.2, negotiate_at cfg j (hH.mp hc.1) (hV.mp hc.2),
      getDataIf_agree cfg hl h (by omega) (fun _ => h1), getDataIf_agree cfg hl h (by omega) (fun _ => h2),
      flagsAt_agree h (by omega), versionAt_agree h (by omega) (by omega)]
  · rw [negotiate_no cfg i hc, negotiate_no cfg j (by rw [← hH, ← hV]; exact hc)]

theorem challenge_local (cfg : Cfg) (i j : List UInt8) (hl : i.length = j.length)
    (h : i.take (48 + versionSize i 20) = j.take (48 + versionSize i 20)) (h1 : fieldBytes i 12 = fieldBytes j 12)
    (h2 : fieldBytes i 40 = fieldBytes j 40) :
    (Wire.deserialize cfg : Parser Challenge) i = Wire.deserialize cfg j := by
  have hH : challengeHeader cfg i ↔ challengeHeader cfg j := by
    unfold challengeHeader
    rw [hasHeader_agree hl h (by omega), u32At_agree h (show 32 + 4 ≤ _ by omega), u32At_agree h (show 36 + 4 ≤ _ by omega)]
  have hV : versionBlockOk i 20 48 ↔ versionBlockOk j 20 48 := versionBlockOk_agree hl h (by omega) (by omega)
  by_cases hc : challengeHeader cfg i ∧ versionBlockOk i 20 48
  · have hi := hc.1.1.1
    have hj := (hH.mp hc.1).1.1
    rw [challenge_at cfg i hc.1 (by omega) hc.2, challenge_at cfg j (hH.mp hc.1) (by omega) (hV.mp hc.2),
      getDataIf_agree cfg hl h (by omega) (fun _ => h1), getManyIf_agree cfg hl h (by omega) h2]
    simp only [flagsAt_agree h (show 20 + 4 ≤ _ by omega), versionAt_agree h (show 20 + 4 ≤ _ by omega) (show 48 + _ ≤ _ by omega),
      bytesAt_agree h (show 24 + 8 ≤ _ by omega)]
  · rw [challenge_no cfg i hc, challenge_no cfg j (by rw [← hH, ← hV]; exact hc)]

theorem authenticate_local (cfg : Cfg) (i j : List UInt8) (hl : i.length = j.length)
    (h : i.take (64 + versionSize i 60 + 16) = j.take (64 + versionSize i 60 + 16))
    (hp : ∀ p ∈ [12, 20, 28, 36, 44], fieldBytes i p = fieldBytes j p)
    (hk : flagAt i 60 30 → fieldBytes i 52 = fieldBytes j 52) :
    (Wire.deserialize cfg : Parser Authenticate) i = Wire.deserialize cfg j := by
  have hH : hasHeader i 3 64 ↔ hasHeader j 3 64 := hasHeader_agree hl h (by omega)
  have hV : versionBlockOk i 60 64 ↔ versionBlockOk j 60 64 := versionBlockOk_agree hl h (by omega) (by omega)
  have hs : versionSize i 60 = versionSize j 60 := versionSize_agree h (by omega)
  have hh : authHeaderAt i = authHeaderAt j := by
    simp only [authHeaderAt, fieldAt_agree h (show 12 + 8 ≤ _ by omega), fieldAt_agree h (show 20 + 8 ≤ _ by omega),
      fieldAt_agree h (show 28 + 8 ≤ _ by omega), fieldAt_agree h (show 36 + 8 ≤ _ by omega),
      fieldAt_agree h (show 44 + 8 ≤ _ by omega), fieldAt_agree h (show 52 + 8 ≤ _ by omega),
      flagsAt_agree h (show 60 + 4 ≤ _ by omega)]
  by_cases hc : hasHeader i 3 64 ∧ versionBlockOk i 60 64 ∧ 64 + versionSize i 60 + 16 ≤ i.length
  · obtain ⟨c1, c2, c3⟩ := hc
    rw [authenticate_at cfg i c1 c2 c3, authenticate_at cfg j (hH.mp c1) (hV.mp c2) (by omega)]
    have hb : ∀ v m, Authenticate.body cfg (authHeaderAt i) v m i = Authenticate.body cfg (authHeaderAt j) v m j := by
      intro v m
      have f12 := hp 12 (by simp)
      have e1 : ((authHeaderAt i).lm.getDataIf cfg i true : Except PErr (Option Lmv1Challenge)) =
          (authHeaderAt j).lm.getDataIf cfg j true := getDataIf_agree cfg hl h (show 12 + 8 ≤ _ by omega) (fun _ => f12)
      have e2 : ((authHeaderAt i).lm.getDataIf cfg i true : Except PErr (Option Lmv2Challenge)) =
          (authHeaderAt j).lm.getDataIf cfg j true := getDataIf_agree cfg hl h (show 12 + 8 ≤ _ by omega) (fun _ => f12)
      have e3 : ((authHeaderAt i).nt.getDataIf cfg i true : Except PErr (Option NtChallenge)) =
          (authHeaderAt j).nt.getDataIf cfg j true := getDataIf_agree cfg hl h (show 20 + 8 ≤ _ by omega) (fun _ => hp 20 (by simp))
      have e4 : ((authHeaderAt i).domain.getDataIf cfg i true : Except PErr (Option UnicodeString)) =
          (authHeaderAt j).domain.getDataIf cfg j true :=
        getDataIf_agree cfg hl h (show 28 + 8 ≤ _ by omega) (fun _ => hp 28 (by simp))
      have e5 : ((authHeaderAt i).user.getDataIf cfg i true : Except PErr (Option UnicodeString)) =
          (authHeaderAt j).user.getDataIf cfg j true :=
        getDataIf_agree cfg hl h (show 36 + 8 ≤ _ by omega) (fun _ => hp 36 (by simp))
      have e6 : ((authHeaderAt i).workstation.getDataIf cfg i true : Except PErr (Option UnicodeString)) =
          (authHeaderAt j).workstation.getDataIf cfg j true :=
        getDataIf_agree cfg hl h (show 44 + 8 ≤ _ by omega) (fun _ => hp 44 (by simp))
      have hbit : (authHeaderAt i).flags.hasFlag Flags.NTLMSSP_NEGOTIATE_KEY_EXCH = (u32At i 60).testBit 30 := by
        show (flagsAt i 60).hasFlag _ = _
        rw [hasFlag_testBit _ _ (by decide), flagsAt_bits]; rfl
      have e7 : ((authHeaderAt i).ersk.getDataIf cfg i ((authHeaderAt i).flags.hasFlag Flags.NTLMSSP_NEGOTIATE_KEY_EXCH) :
          Except PErr (Option (Bytes 16))) =
          (authHeaderAt j).ersk.getDataIf cfg j ((authHeaderAt i).flags.hasFlag Flags.NTLMSSP_NEGOTIATE_KEY_EXCH) :=
        getDataIf_agree cfg hl h (show 52 + 8 ≤ _ by omega) (fun hc => hk (by rw [hbit] at hc; exact hc))
      unfold Authenticate.body Authenticate.lmResponse
      rw [e1, e2, e3, e4, e5, e6, e7, hh]
    simp only [hb, hs, versionAt_agree h (show 60 + 4 ≤ _ by omega) (show 64 + _ ≤ _ by omega)]
    have e8 := bytesAt_agree h (show 64 + versionSize j 60 + 16 ≤ _ by omega)
    simp only [e8]
  · rw [authenticate_no cfg i hc, authenticate_no cfg j (by rw [← hH, ← hV, ← hs, ← hl]; exact hc)]

end Ntlm
