import Verif.Spec.Builds
import Verif.Model.Md5
/-! # C34: the md5 and the openssl build -/
namespace Radius
open Spec

section
variable {F : FHash} {H : Hash} (hF : SameDigests F H)
include hF

theorem digestA_same (data : Bytes) :
    SameOrReported F AVPError.HashComputationFailed (.ok (H data).val) (OpenSsl.digestA F data) := by
  unfold OpenSsl.digestA
  cases h : F data with
  | error m => exact .reported data m h rfl
  | ok d => rw [hF data d h]; exact .same rfl

theorem digestP_same (data : Bytes) :
    SameOrReported F PacketError.HashComputationFailed (.ok (H data).val) (OpenSsl.digestP F data) := by
  unfold OpenSsl.digestP
  cases h : F data with
  | error m => exact .reported data m h rfl
  | ok d => rw [hF data d h]; exact .same rfl

omit hF in
theorem same_bind {ε α β : Type} {rep : String → ε} {x y : Out ε α} {f g : α → Out ε β}
    (h : SameOrReported F rep x y) (hfg : ∀ a, x = .ok a → SameOrReported F rep (f a) (g a)) :
    SameOrReported F rep (x >>= f) (y >>= g) := by
  cases h with
  | same h =>
    subst h
    cases y with
    | ok a => exact hfg a rfl
    | err e => exact .same rfl
    | panic => exact .same rfl
  | reported data m h1 h2 => subst h2; exact .reported data m h1 rfl

theorem hideLoop_same (secret : Bytes) : ∀ (cs : List Bytes) (buff enc : Bytes),
    SameOrReported F AVPError.HashComputationFailed (.ok (AVP.hideLoop H secret cs buff enc))
      (OpenSsl.hideLoop F secret cs buff enc)
  | [], _, _ => .same rfl
  | c :: cs, buff, enc => by
    have := digestA_same hF (secret ++ buff)
    simp only [AVP.hideLoop, OpenSsl.hideLoop]
    exact same_bind (f := fun d => .ok (AVP.hideLoop H secret cs (xorBytes d (AVP.padChunk c))
      (enc ++ xorBytes d (AVP.padChunk c)))) this (fun a _ => hideLoop_same secret cs _ _)

theorem revealLoop_same (secret : Bytes) : ∀ (cs : List Bytes) (buff dec : Bytes),
    SameOrReported F AVPError.HashComputationFailed (.ok (AVP.revealLoop H secret cs buff dec))
      (OpenSsl.revealLoop F secret cs buff dec)
  | [], _, _ => .same rfl
  | c :: cs, buff, dec => by
    have := digestA_same hF (secret ++ buff)
    simp only [AVP.revealLoop, OpenSsl.revealLoop]
    exact same_bind (f := fun d => .ok (AVP.revealLoop H secret cs c (dec ++ xorBytes d c))) this
      (fun a _ => revealLoop_same secret cs _ _)

/-- **C34** Password hiding and revealing: the openssl build gives the same result as the md5 build or reports that the
digest failed. -/
theorem C34_passwords (t : AVPType) (a : AVP) (pw secret auth : Bytes) (r0 r1 : UInt8) (tag : Option Tag) :
    SameOrReported F AVPError.HashComputationFailed (AVP.fromUserPassword H t pw secret auth)
      (OpenSsl.fromUserPassword F t pw secret auth) ∧
    SameOrReported F AVPError.HashComputationFailed (a.encodeUserPassword H secret auth)
      (OpenSsl.encodeUserPassword F a secret auth) ∧
    SameOrReported F AVPError.HashComputationFailed (AVP.fromTunnelPassword H r0 r1 t tag pw secret auth)
      (OpenSsl.fromTunnelPassword F r0 r1 t tag pw secret auth) ∧
    SameOrReported F AVPError.HashComputationFailed (a.encodeTunnelPassword H secret auth)
      (OpenSsl.encodeTunnelPassword F a secret auth) := by
  refine ⟨?_, ?_, ?_, ?_⟩
  · unfold AVP.fromUserPassword OpenSsl.fromUserPassword
    split
    · exact .same rfl
    split
    · exact .same rfl
    split
    · exact .same rfl
    dsimp only
    split
    · exact same_bind (f := fun d => .ok (AVP.mk t (xorBytes d (List.replicate 16 0)))) (digestA_same hF _) (fun _ _ => .same rfl)
    · exact same_bind (f := fun d => .ok (AVP.mk t d)) (hideLoop_same hF secret _ _ _) (fun _ _ => .same rfl)
  · unfold AVP.encodeUserPassword OpenSsl.encodeUserPassword
    split
    · exact .same rfl
    split
    · exact .same rfl
    split
    · exact .same rfl
    exact same_bind (f := fun d => .ok (AVP.upToZero d)) (revealLoop_same hF secret _ _ _) (fun _ _ => .same rfl)
  · unfold AVP.fromTunnelPassword OpenSsl.fromTunnelPassword
    split
    · exact .same rfl
    dsimp only
    split
    · exact .same rfl
    split
    · exact .same rfl
    have hd := digestA_same hF (secret ++ (auth ++ [r0 ||| 0x80, r1]))
    split
    · exact same_bind (f := fun d => .ok (AVP.mk t (_ ++ xorBytes d (List.replicate 16 0)))) hd (fun _ _ => .same rfl)
    · refine same_bind (f := fun _ => .ok (AVP.mk t (AVP.hideLoop H secret (chunks 15 pw) _ _))) hd (fun _ _ => ?_)
      exact same_bind (f := fun d => .ok (AVP.mk t d)) (hideLoop_same hF secret _ _ _) (fun _ _ => .same rfl)
  · unfold AVP.encodeTunnelPassword OpenSsl.encodeTunnelPassword
    split
    · exact .same rfl
    refine same_bind (.same rfl) (fun v1 _ => ?_)
    split
    · exact .same rfl
    split
    · exact .same rfl
    split
    · exact .same rfl
    refine same_bind (.same rfl) (fun b _ => ?_)
    refine same_bind (.same rfl) (fun salt _ => ?_)
    refine same_bind (.same rfl) (fun body _ => ?_)
    exact same_bind (f := fun d => .ok (AVP.upToZero d, _)) (revealLoop_same hF secret _ _ _) (fun _ _ => .same rfl)

/-- **C34** Encoding a packet: the same bytes or error, or the report that the digest failed. -/
theorem C34_encode (ck : Bool) (p : Packet) :
    SameOrReported F PacketError.HashComputationFailed (p.encode H ck) (OpenSsl.encode F ck p) := by
  unfold Packet.encode OpenSsl.encode
  refine same_bind (.same rfl) (fun bs _ => ?_)
  generalize p.code = c
  cases c <;> first | exact .same rfl | skip
  all_goals
    refine same_bind (.same rfl) (fun x _ => ?_)
    refine same_bind (.same rfl) (fun y _ => ?_)
    exact same_bind (f := fun d => splice bs 4 20 d) (digestP_same hF _) (fun _ _ => .same rfl)

theorem digestExpect_cases (data : Bytes) :
    OpenSsl.digestExpect F data = .ok (H data).val ∨
    ∃ m, F data = .error m ∧ OpenSsl.digestExpect F data = .panic := by
  unfold OpenSsl.digestExpect
  cases h : F data with
  | error m => exact .inr ⟨m, rfl, rfl⟩
  | ok d => rw [hF data d h]; exact .inl rfl

/-- **C34** The authenticity checks: the same answer, or a panic because the digest failed; never a wrong answer. -/
theorem C34_checks (response request secret : Bytes) :
    SameOrPanic F (Packet.isAuthenticResponse H response request secret)
      (OpenSsl.isAuthenticResponse F response request secret) ∧
    SameOrPanic F (Packet.isAuthenticRequest H request secret) (OpenSsl.isAuthenticRequest F request secret) := by
  constructor
  · unfold Packet.isAuthenticResponse OpenSsl.isAuthenticResponse
    split
    · exact .same rfl
    cases h1 : (slice response 0 4 : Out Empty Bytes) with
    | err e => exact e.elim
    | panic => exact .same rfl
    | ok p1 =>
    cases h2 : (slice request 4 RADIUS_PACKET_HEADER_LENGTH : Out Empty Bytes) with
    | err e => exact e.elim
    | panic => exact .same rfl
    | ok p2 =>
    cases h3 : (sliceFrom response RADIUS_PACKET_HEADER_LENGTH : Out Empty Bytes) with
    | err e => exact e.elim
    | panic => exact .same rfl
    | ok p3 =>
    simp only [Out.bind_ok]
    rcases digestExpect_cases hF (p1 ++ p2 ++ p3 ++ secret) with h | ⟨m, hm, h⟩
    · rw [h]; exact .same rfl
    · rw [h]; exact .panic _ m hm rfl
  · unfold Packet.isAuthenticRequest OpenSsl.isAuthenticRequest
    split
    · exact .same rfl
    cases h0 : (idx request 0 : Out Empty UInt8) with
    | err e => exact e.elim
    | panic => exact .same rfl
    | ok c =>
    simp only [Out.bind_ok]
    generalize Code.from c = k
    cases k <;> first | exact .same rfl | skip
    all_goals
      simp only []
      cases h1 : (slice request 0 4 : Out Empty Bytes) with
      | err e => exact e.elim
      | panic => exact .same rfl
      | ok p1 =>
      cases h3 : (sliceFrom request RADIUS_PACKET_HEADER_LENGTH : Out Empty Bytes) with
      | err e => exact e.elim
      | panic => exact .same rfl
      | ok p3 =>
      simp only [Out.bind_ok]
      rcases digestExpect_cases hF (p1 ++ Packet.zeros16 ++ p3 ++ secret) with h | ⟨m, hm, h⟩
      · rw [h]; exact .same rfl
      · rw [h]; exact .panic _ m hm rfl

end

theorem same_of_total {ε α : Type} {H : Hash} {rep : String → ε} {x y : Out ε α}
    (h : SameOrReported (fun d => .ok (H d)) rep x y) : y = x := by
  cases h with
  | same h => exact h
  | reported _ _ h _ => cases h

/-- **C34** When the digest does not fail, both builds are the same function. -/
theorem C34_builds_equal (H : Hash) (ck : Bool) (p : Packet) (t : AVPType) (a : AVP) (pw secret auth : Bytes)
    (r0 r1 : UInt8) (tag : Option Tag) (response request : Bytes) :
    let F : FHash := fun d => .ok (H d)
    OpenSsl.encode F ck p = p.encode H ck ∧
    OpenSsl.fromUserPassword F t pw secret auth = AVP.fromUserPassword H t pw secret auth ∧
    OpenSsl.encodeUserPassword F a secret auth = a.encodeUserPassword H secret auth ∧
    OpenSsl.fromTunnelPassword F r0 r1 t tag pw secret auth = AVP.fromTunnelPassword H r0 r1 t tag pw secret auth ∧
    OpenSsl.encodeTunnelPassword F a secret auth = a.encodeTunnelPassword H secret auth ∧
    OpenSsl.isAuthenticResponse F response request secret = Packet.isAuthenticResponse H response request secret ∧
    OpenSsl.isAuthenticRequest F request secret = Packet.isAuthenticRequest H request secret := by
  have hF : SameDigests (fun d => .ok (H d)) H := fun _ _ h => (Except.ok.inj h).symm
  obtain ⟨h1, h2, h3, h4⟩ := C34_passwords hF t a pw secret auth r0 r1 tag
  obtain ⟨h5, h6⟩ := C34_checks hF response request secret
  have tot : ∀ {x y : Out Empty Bool}, SameOrPanic (fun d => .ok (H d)) x y → y = x := by
    intro x y h
    cases h with
    | same h => exact h
    | panic _ _ h _ => cases h
  exact ⟨same_of_total (C34_encode hF ck p), same_of_total h1, same_of_total h2, same_of_total h3, same_of_total h4,
    tot h5, tot h6⟩

/-- Both outcomes occur: a digest that fails on long inputs. -/
def flaky : FHash := fun d => if d.length > 30 then .error "failed" else .ok (Md5.md5 d)

example : SameDigests flaky Md5.md5 := by
  intro d x h
  unfold flaky at h
  split at h
  · cases h
  · exact (Except.ok.inj h).symm

example : OpenSsl.fromUserPassword flaky 2 [1] [1, 2] (List.replicate 16 7) =
    AVP.fromUserPassword Md5.md5 2 [1] [1, 2] (List.replicate 16 7) ∧
    OpenSsl.fromUserPassword flaky 2 [1] (List.replicate 20 1) (List.replicate 16 7) =
      .err (.HashComputationFailed "failed") ∧
    OpenSsl.isAuthenticRequest flaky (4 :: List.replicate 30 0) [1] = .panic := by decide +kernel

end Radius
