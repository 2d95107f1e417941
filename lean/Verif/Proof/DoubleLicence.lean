import Verif.Model.DoubleLicence
import Verif.Spec.License
import Verif.Proof.Doubles
/-! # Lemmas: a licence after a timestep, in double precision -/

namespace Verif.Float64

/-- What a timestep takes off a licence is what the node takes, up to rounding, and the solver's excess `η` if nothing is left. -/
theorem licence_step {u τ : Rat} (hu : 0 < u) (hu1 : u ≤ 1 / 1000) (hτ : 0 < τ) (hfl : ∀ x, |fl x - x| ≤ u * |x| + τ) (A η : Rat) (s : License.State) (t : License.Step) (hd : IsDouble s.remaining)
    (h0 : 0 ≤ s.remaining) (hA : s.remaining ≤ A) (hη : 0 ≤ η) (hf : 0 ≤ t.flow) (hp : t.flow * t.len ≤ s.remaining + η) :
    IsDouble (licenceAfter s t).remaining ∧ 0 ≤ (licenceAfter s t).remaining ∧ (licenceAfter s t).remaining ≤ s.remaining ∧
    t.flow * t.len ≤ s.remaining - (licenceAfter s t).remaining + η + (3 * u * (A + η) + 3 * τ) ∧
    s.remaining - (licenceAfter s t).remaining ≤ t.flow * t.len + (3 * u * (A + η) + 3 * τ) := by
  have hp0 : 0 ≤ t.flow * t.len := by positivity
  have e : (licenceAfter s t).remaining = if fl (s.remaining - fl (t.flow * t.len)) < 0 then 0 else fl (s.remaining - fl (t.flow * t.len)) := rfl
  rw [e]
  generalize t.flow * (t.len : Rat) = p at *
  generalize s.remaining = r at *
  have h1 := hfl p
  have h2 := hfl (r - fl p)
  have hpn : 0 ≤ fl p := fl_nonneg hp0
  have hle : fl (r - fl p) ≤ r := by
    have := fl_mono (show r - fl p ≤ r by linarith)
    rwa [fl_self hd] at this
  rw [abs_of_nonneg hp0] at h1
  have h3 : |r - fl p| ≤ A + η + |fl p - p| := by
    have h4 := abs_add_le (r - p) (p - fl p)
    rw [sub_add_sub_cancel, abs_sub_comm p (fl p)] at h4
    have h5 : |r - p| ≤ A + η := abs_le.2 ⟨by linarith, by linarith⟩
    linarith
  have hup : u * p ≤ u * (A + η) := mul_le_mul_of_nonneg_left (by linarith) hu.le
  have h6 : u * |r - fl p| ≤ u * (A + η + (u * (A + η) + τ)) := mul_le_mul_of_nonneg_left (by linarith) hu.le
  have hA0 : 0 ≤ A + η := by linarith
  have h7 : u * (u * (A + η)) ≤ u * (A + η) := by
    have : u * (u * (A + η)) ≤ 1 * (u * (A + η)) := mul_le_mul_of_nonneg_right (by linarith) (by positivity)
    linarith
  have h8 : u * τ ≤ τ := by nlinarith
  have h9 : |fl (r - fl p) - (r - p)| ≤ 3 * u * (A + η) + 3 * τ := by
    have h10 := abs_add_le (fl (r - fl p) - (r - fl p)) (p - fl p)
    rw [show fl (r - fl p) - (r - fl p) + (p - fl p) = fl (r - fl p) - (r - p) by ring, abs_sub_comm p (fl p)] at h10
    linarith
  rw [abs_le] at h9
  have hε : 0 ≤ 3 * u * (A + η) + 3 * τ := by positivity
  split
  · rename_i hneg
    exact ⟨isDouble_zero, le_rfl, h0, by linarith, by linarith [h9.1, h9.2]⟩
  · rename_i hneg
    exact ⟨fl_double _, not_lt.1 hneg, hle, by linarith [h9.1, h9.2], by linarith [h9.1, h9.2]⟩

end Verif.Float64
