import Verif.Proofs.EstSeg1
import Verif.Proofs.EstSeg2
import Verif.Proofs.EstSeg3
import Verif.Proofs.EstSeg4
import Verif.Proofs.EstSeg5
import Verif.Proofs.EstSeg6
import Verif.Proofs.EstSeg7
import Verif.Proofs.EstSeg8

/-! # The floating point estimates on the certified range -/

namespace NumPrime
open Spec

/-- the estimates are right for `252 ≤ x < e` and `54 < n ≤ k` -/
structure EstUpTo (e k : ℕ) : Prop where
  count : k = Nat.primeCounting (e - 1)
  pi : ∀ F : FloatOps, F.Accurate → ∀ x, 252 ≤ x → x < e → PiOK F x
  nth : ∀ F : FloatOps, F.Accurate → ∀ n, 54 < n → n ≤ k → NthOK F n

theorem EstUpTo.step {A e k0 ke fp fn cp cn : ℕ} (h : EstUpTo A k0) (hc : segCheck A e k0 ke fp fn cp cn = true)
    (hA : 2 ≤ A) (hAe : A ≤ e) (he : e ≤ 66699889) : EstUpTo e ke := by
  obtain ⟨h1, h2, h3⟩ := segCheck_sound hA hAe he h.count hc
  refine ⟨h1, fun F hF x hx hxe => ?_, fun F hF n hn hne => ?_⟩
  · rcases Nat.lt_or_ge x A with h4 | h4
    · exact h.pi F hF x hx h4
    · exact h2 F hF x h4 hxe
  · rcases Nat.lt_or_ge k0 n with h4 | h4
    · exact h3 F hF n h4 hne
    · exact h.nth F hF n hn h4

theorem estRange : EstUpTo 11534336 759401 ∧ EstUpTo 10629729 703623 := by
  have h0 : EstUpTo 252 54 := ⟨by decide +kernel, fun F _ x h1 h2 => by omega, fun F _ n h1 h2 => by omega⟩
  have h1 := h0.step estSeg0 (by norm_num) (by norm_num) (by norm_num)
  have h2 := h1.step estSeg1 (by norm_num) (by norm_num) (by norm_num)
  have h3 := h2.step estSeg2 (by norm_num) (by norm_num) (by norm_num)
  have h4 := h3.step estSeg3 (by norm_num) (by norm_num) (by norm_num)
  have h5 := h4.step estSeg4 (by norm_num) (by norm_num) (by norm_num)
  have h6 := h5.step estSeg5 (by norm_num) (by norm_num) (by norm_num)
  have h7 := h6.step estSeg6 (by norm_num) (by norm_num) (by norm_num)
  have h8 := h7.step estSeg7 (by norm_num) (by norm_num) (by norm_num)
  have h9 := h8.step estSeg8 (by norm_num) (by norm_num) (by norm_num)
  have h10 := h9.step estSeg9 (by norm_num) (by norm_num) (by norm_num)
  have h11 := h10.step estSeg10 (by norm_num) (by norm_num) (by norm_num)
  have h12 := h11.step estSeg11 (by norm_num) (by norm_num) (by norm_num)
  have h13 := h12.step estSeg12 (by norm_num) (by norm_num) (by norm_num)
  have h14 := h13.step estSeg13 (by norm_num) (by norm_num) (by norm_num)
  have h15 := h14.step estSeg14 (by norm_num) (by norm_num) (by norm_num)
  have h16 := h15.step estSeg15 (by norm_num) (by norm_num) (by norm_num)
  have h17 := h16.step estSeg16 (by norm_num) (by norm_num) (by norm_num)
  have h18 := h17.step estSeg17 (by norm_num) (by norm_num) (by norm_num)
  have h19 := h18.step estSeg18 (by norm_num) (by norm_num) (by norm_num)
  have h20 := h19.step estSeg19 (by norm_num) (by norm_num) (by norm_num)
  have h21 := h20.step estSeg20 (by norm_num) (by norm_num) (by norm_num)
  have h22 := h21.step estSeg21 (by norm_num) (by norm_num) (by norm_num)
  have h23 := h22.step estSeg22 (by norm_num) (by norm_num) (by norm_num)
  have h24 := h23.step estSeg23 (by norm_num) (by norm_num) (by norm_num)
  have h25 := h24.step estSeg24 (by norm_num) (by norm_num) (by norm_num)
  have h26 := h25.step estSeg25 (by norm_num) (by norm_num) (by norm_num)
  have h27 := h26.step estSeg26 (by norm_num) (by norm_num) (by norm_num)
  have h28 := h27.step estSeg27 (by norm_num) (by norm_num) (by norm_num)
  have h29 := h28.step estSeg28 (by norm_num) (by norm_num) (by norm_num)
  have h30 := h29.step estSeg29 (by norm_num) (by norm_num) (by norm_num)
  have h31 := h30.step estSeg30 (by norm_num) (by norm_num) (by norm_num)
  have h32 := h31.step estSeg31 (by norm_num) (by norm_num) (by norm_num)
  have h33 := h32.step estSeg32 (by norm_num) (by norm_num) (by norm_num)
  have h34 := h33.step estSeg33 (by norm_num) (by norm_num) (by norm_num)
  have h35 := h34.step estSeg34 (by norm_num) (by norm_num) (by norm_num)
  have h36 := h35.step estSeg35 (by norm_num) (by norm_num) (by norm_num)
  have h37 := h36.step estSeg36 (by norm_num) (by norm_num) (by norm_num)
  have h38 := h37.step estSeg37 (by norm_num) (by norm_num) (by norm_num)
  have h39 := h38.step estSeg38 (by norm_num) (by norm_num) (by norm_num)
  have h40 := h39.step estSeg39 (by norm_num) (by norm_num) (by norm_num)
  have h41 := h40.step estSeg40 (by norm_num) (by norm_num) (by norm_num)
  exact ⟨h41, h39⟩

end NumPrime
