import Verif.Lemmas.ZeroHpkot
import Verif.Lemmas.ZoneSc

/-! # Neighbours on the default paths of SC that coincide -/

namespace Wulfric
open Matrix _root_.Spec Wulfric.Spec

theorem zero_CUB : ¬ SameEnds "GAMMA-X-M-GAMMA-R-X|M-R" scTable2 := by
  unfold SameEnds
  rw [steps_CUB]
  simp [scTable2, PyDict.get?]

theorem zero_FCC : ¬ SameEnds "GAMMA-X-W-K-GAMMA-L-U-W-L-K|U-X" scTable3 := by
  unfold SameEnds
  rw [steps_FCC]
  simp [scTable3, PyDict.get?]
  norm_num

theorem zero_BCC : ¬ SameEnds "GAMMA-H-N-GAMMA-P-H|P-N" scTable4 := by
  unfold SameEnds
  rw [steps_BCC]
  simp [scTable4, PyDict.get?]

theorem zero_TET : ¬ SameEnds "GAMMA-X-M-GAMMA-Z-R-A-Z|X-R|M-A" scTable5 := by
  unfold SameEnds
  rw [steps_TET]
  simp [scTable5, PyDict.get?]

theorem zero_ORC : ¬ SameEnds "GAMMA-X-S-Y-GAMMA-Z-U-R-T-Z|Y-T|U-X|S-R" scTable8 := by
  unfold SameEnds
  rw [steps_ORC]
  simp [scTable8, PyDict.get?]

theorem zero_HEX : ¬ SameEnds "GAMMA-M-K-GAMMA-A-L-H-A|L-M|K-H" scTable13 := by
  unfold SameEnds
  rw [steps_HEX]
  simp [scTable13, PyDict.get?]

theorem zero_TRI1a : ¬ SameEnds "X-GAMMA-Y|L-GAMMA-Z|N-GAMMA-M|R-GAMMA" scTable20 := by
  unfold SameEnds
  rw [steps_TRI1a]
  simp [scTable20, PyDict.get?]

theorem zero_TRI2a : ¬ SameEnds "X-GAMMA-Y|L-GAMMA-Z|N-GAMMA-M|R-GAMMA" scTable20 := by
  unfold SameEnds
  rw [steps_TRI2a]
  simp [scTable20, PyDict.get?]

theorem zero_TRI1b : ¬ SameEnds "X-GAMMA-Y|L-GAMMA-Z|N-GAMMA-M|R-GAMMA" scTable21 := by
  unfold SameEnds
  rw [steps_TRI1b]
  simp [scTable21, PyDict.get?]

theorem zero_TRI2b : ¬ SameEnds "X-GAMMA-Y|L-GAMMA-Z|N-GAMMA-M|R-GAMMA" scTable21 := by
  unfold SameEnds
  rw [steps_TRI2b]
  simp [scTable21, PyDict.get?]

theorem abs_BCT1 {eta : ℝ} (eta0 : 0 < eta) (eta1 : eta < 1 / 2) :
    ¬ SameEnds "GAMMA-X-M-GAMMA-Z-P-N-Z1-M|X-P"
      [("GAMMA", ![0, 0, 0]), ("M", ![-1 / 2, 1 / 2, 1 / 2]), ("N", ![0, 1 / 2, 0]),
       ("P", ![1 / 4, 1 / 4, 1 / 4]), ("X", ![0, 0, 1 / 2]), ("Z", ![eta, eta, -eta]),
       ("Z1", ![-eta, 1 - eta, eta])] := by
  unfold SameEnds
  rw [steps_BCT1]
  simp [PyDict.get?]
  refine ⟨?_, ?_, ?_, ?_⟩ <;> intros <;> (try intro) <;> linarith

theorem abs_BCT2 {eta zeta : ℝ} (eta0 : 0 < eta) (eta1 : eta < 1 / 2) (zeta0 : 0 < zeta) (zeta1 : zeta < 1 / 2) :
    ¬ SameEnds "GAMMA-X-Y-SIGMA-GAMMA-Z-SIGMA1-N-P-Y1-Z|X-P"
      [("GAMMA", ![0, 0, 0]), ("N", ![0, 1 / 2, 0]), ("P", ![1 / 4, 1 / 4, 1 / 4]),
       ("SIGMA", ![-eta, eta, eta]), ("SIGMA1", ![eta, 1 - eta, -eta]), ("X", ![0, 0, 1 / 2]),
       ("Y", ![-zeta, zeta, 1 / 2]), ("Y1", ![1 / 2, 1 / 2, -zeta]),
       ("Z", ![1 / 2, 1 / 2, -1 / 2])] := by
  unfold SameEnds
  rw [steps_BCT2]
  simp [PyDict.get?]
  refine ⟨?_, ?_, ?_, ?_, ?_, ?_⟩ <;> intros <;> (try intro) <;> linarith

theorem abs_ORCF1 {eta zeta : ℝ} (eta0 : 0 < eta) (eta1 : eta < 1 / 2) (zeta0 : 0 < zeta) (zeta1 : zeta < 1 / 2) :
    ¬ SameEnds "GAMMA-Y-T-Z-GAMMA-X-A1-Y|T-X1|X-A-Z|L-GAMMA"
      [("GAMMA", ![0, 0, 0]), ("A", ![1 / 2, 1 / 2 + zeta, zeta]),
       ("A1", ![1 / 2, 1 / 2 - zeta, 1 - zeta]), ("L", ![1 / 2, 1 / 2, 1 / 2]),
       ("T", ![1, 1 / 2, 1 / 2]), ("X", ![0, eta, eta]), ("X1", ![1, 1 - eta, 1 - eta]),
       ("Y", ![1 / 2, 0, 1 / 2]), ("Z", ![1 / 2, 1 / 2, 0])] := by
  unfold SameEnds
  rw [steps_ORCF1]
  simp [PyDict.get?]
  refine ⟨?_, ?_, ?_, ?_⟩ <;> intros <;> (try intro) <;> linarith

theorem abs_ORCF2 {eta delta phi : ℝ} (eta0 : 0 < eta) (eta1 : eta < 1 / 2)
    (delta0 : 0 < delta) (delta1 : delta < 1 / 2) (phi0 : 0 < phi) (phi1 : phi < 1 / 2) :
    ¬ SameEnds "GAMMA-Y-C-D-X-GAMMA-Z-D1-H-C|C1-Z|X-H1|H-Y|L-GAMMA"
      [("GAMMA", ![0, 0, 0]), ("C", ![1 / 2, 1 / 2 - eta, 1 - eta]),
       ("C1", ![1 / 2, 1 / 2 + eta, eta]), ("D", ![1 / 2 - delta, 1 / 2, 1 - delta]),
       ("D1", ![1 / 2 + delta, 1 / 2, delta]), ("L", ![1 / 2, 1 / 2, 1 / 2]),
       ("H", ![1 - phi, 1 / 2 - phi, 1 / 2]), ("H1", ![phi, 1 / 2 + phi, 1 / 2]),
       ("X", ![0, 1 / 2, 1 / 2]), ("Y", ![1 / 2, 0, 1 / 2]), ("Z", ![1 / 2, 1 / 2, 0])] := by
  unfold SameEnds
  rw [steps_ORCF2]
  simp [PyDict.get?]
  refine ⟨?_, ?_, ?_, ?_, ?_, ?_, ?_, ?_, ?_⟩ <;> intros <;> (try intro) <;> linarith

theorem abs_ORCF3 {eta zeta : ℝ} (eta0 : 0 < eta) (zeta0 : 0 < zeta) (zeta1 : zeta < 1 / 2) :
    ¬ SameEnds "GAMMA-Y-T-Z-GAMMA-X-A1-Y|X-A-Z|L-GAMMA"
      [("GAMMA", ![0, 0, 0]), ("A", ![1 / 2, 1 / 2 + zeta, zeta]),
       ("A1", ![1 / 2, 1 / 2 - zeta, 1 - zeta]), ("L", ![1 / 2, 1 / 2, 1 / 2]),
       ("T", ![1, 1 / 2, 1 / 2]), ("X", ![0, eta, eta]), ("X1", ![1, 1 - eta, 1 - eta]),
       ("Y", ![1 / 2, 0, 1 / 2]), ("Z", ![1 / 2, 1 / 2, 0])] := by
  unfold SameEnds
  rw [steps_ORCF3]
  simp [PyDict.get?]
  refine ⟨?_, ?_, ?_⟩ <;> intros <;> (try intro) <;> linarith

theorem abs_ORCI {x y zeta eta delta mu : ℝ} (x0 : 0 < x) (y0 : 0 < y) (h1 : zeta = (1 + x) / 4)
    (h2 : eta = (1 + y) / 4) (h3 : delta = (y - x) / 4) (h4 : mu = (x + y) / 4) :
    SameEnds "GAMMA-X-L-T-W-R-X1-Z-GAMMA-Y-S-W|L1-Y|Y1-Z"
      [("GAMMA", ![0, 0, 0]), ("L", ![-mu, mu, 1 / 2 - delta]),
       ("L1", ![mu, -mu, 1 / 2 + delta]), ("L2", ![1 / 2 - delta, 1 / 2 + delta, -mu]),
       ("R", ![0, 1 / 2, 0]), ("S", ![1 / 2, 0, 0]), ("T", ![0, 0, 1 / 2]),
       ("W", ![1 / 4, 1 / 4, 1 / 4]), ("X", ![-zeta, zeta, zeta]),
       ("X1", ![zeta, 1 - zeta, -zeta]), ("Y", ![eta, -eta, eta]), ("Y1", ![1 - eta, eta, -eta]),
       ("Z", ![1 / 2, 1 / 2, -1 / 2])] ↔ 
      x = 1 ∨ y = 1 := by
  unfold SameEnds
  rw [steps_ORCI]
  simp [PyDict.get?]
  constructor
  · rintro (⟨h, -⟩ | ⟨h, h'⟩ | ⟨h, -⟩ | ⟨h, -⟩ | ⟨h, -⟩ | ⟨h, -⟩ | ⟨h, h'⟩ | ⟨h, h'⟩ | ⟨-, h, -⟩)
    · linarith
    · right; linarith
    · linarith
    · linarith
    · left; linarith
    · linarith
    · linarith
    · left; linarith
    · right; linarith
  · rintro (rfl | rfl)
    · right; right; right; right; left
      refine ⟨?_, ?_, ?_⟩ <;> linarith
    · right; left
      constructor <;> linarith

theorem abs_ORCC {x zeta : ℝ} (x0 : 0 < x) (h1 : zeta = (1 + x) / 4) :
    SameEnds "GAMMA-X-S-R-A-Z-GAMMA-Y-X1-A1-T-Y|Z-T"
      [("GAMMA", ![0, 0, 0]), ("A", ![zeta, zeta, 1 / 2]), ("A1", ![-zeta, 1 - zeta, 1 / 2]),
       ("R", ![0, 1 / 2, 1 / 2]), ("S", ![0, 1 / 2, 0]), ("T", ![-1 / 2, 1 / 2, 1 / 2]),
       ("X", ![zeta, zeta, 0]), ("X1", ![-zeta, 1 - zeta, 0]), ("Y", ![-1 / 2, 1 / 2, 0]),
       ("Z", ![0, 0, 1 / 2])] ↔ 
      x = 1 := by
  unfold SameEnds
  rw [steps_ORCC]
  simp [PyDict.get?]
  constructor
  · rintro (h | ⟨h, -⟩ | ⟨h, -⟩ | h | ⟨h, -⟩ | ⟨h, -⟩) <;> linarith
  · rintro rfl
    right; right; right; right; left
    constructor <;> linarith

theorem abs_RHL1 {eta nu : ℝ} (eta0 : 1 / 2 < eta) (eta1 : eta < 1)
    (h : nu = 3 / 4 - eta / 2) :
    ¬ SameEnds "GAMMA-L-B1|B-Z-GAMMA-X|Q-F-P1-Z|L-P"
      [("GAMMA", ![0, 0, 0]), ("B", ![eta, 1 / 2, 1 - eta]), ("B1", ![1 / 2, 1 - eta, eta - 1]),
       ("F", ![1 / 2, 1 / 2, 0]), ("L", ![1 / 2, 0, 0]), ("L1", ![0, 0, -1 / 2]),
       ("P", ![eta, nu, nu]), ("P1", ![1 - nu, 1 - nu, 1 - eta]), ("P2", ![nu, nu, eta - 1]),
       ("Q", ![1 - nu, nu, 0]), ("X", ![nu, 0, -nu]), ("Z", ![1 / 2, 1 / 2, 1 / 2])] := by
  unfold SameEnds
  rw [steps_RHL1]
  simp [PyDict.get?]
  refine ⟨?_, ?_, ?_, ?_, ?_, ?_, ?_⟩ <;> intros <;> (try intro) <;> linarith

theorem abs_RHL2 {eta nu : ℝ} (eta0 : 0 < eta) (eta1 : eta < 1 / 2)
    (h : nu = 3 / 4 - eta / 2) :
    ¬ SameEnds "GAMMA-P-Z-Q-GAMMA-F-P1-Q1-L-Z"
      [("GAMMA", ![0, 0, 0]), ("F", ![1 / 2, -1 / 2, 0]), ("L", ![1 / 2, 0, 0]),
       ("P", ![1 - nu, -nu, 1 - nu]), ("P1", ![nu, nu - 1, nu - 1]), ("Q", ![eta, eta, eta]),
       ("Q1", ![1 - eta, -eta, -eta]), ("Z", ![1 / 2, -1 / 2, 1 / 2])] := by
  unfold SameEnds
  rw [steps_RHL2]
  simp [PyDict.get?]
  refine ⟨?_, ?_, ?_, ?_, ?_, ?_, ?_⟩ <;> intros <;> (try intro) <;> linarith

theorem abs_MCL {x y s eta nu : ℝ} (e : s = 1 - x * y) (s0 : 0 < s)
    (ex : x = 0 ↔ y = 0) (h1 : 2 * eta * s = 1 - x) (h2 : nu = 1 / 2 - eta * y) :
    SameEnds "GAMMA-Y-H-C-E-M1-A-X-H1|M-D-Z|Y-D"
      [("GAMMA", ![0, 0, 0]), ("A", ![1 / 2, 1 / 2, 0]), ("C", ![0, 1 / 2, 1 / 2]),
       ("D", ![1 / 2, 0, 1 / 2]), ("D1", ![1 / 2, 0, -1 / 2]), ("E", ![1 / 2, 1 / 2, 1 / 2]),
       ("H", ![0, eta, 1 - nu]), ("H1", ![0, 1 - eta, nu]), ("H2", ![0, eta, -nu]),
       ("M", ![1 / 2, eta, 1 - nu]), ("M1", ![1 / 2, 1 - eta, nu]), ("M2", ![1 / 2, eta, -nu]),
       ("X", ![0, 1 / 2, 0]), ("Y", ![0, 0, 1 / 2]), ("Y1", ![0, 0, -1 / 2]),
       ("Z", ![1 / 2, 0, 0])] ↔ 
      x = 0 ∨ x = 1 ∨ y = 1 := by
  unfold SameEnds
  rw [steps_MCL]
  simp [PyDict.get?]
  constructor
  · rintro (⟨h, -⟩ | ⟨h, h'⟩ | ⟨h, h'⟩ | ⟨h, h'⟩ | ⟨h, h'⟩ | ⟨h, -⟩)
    · right; left; subst h; linarith
    · left
      have : eta = 1 / 2 := by linarith
      subst this
      exact ex.2 (by linarith)
    · left
      have : eta = 1 / 2 := by linarith
      subst this
      exact ex.2 (by linarith)
    · right; right
      have : eta = 1 / 2 := by linarith
      subst this
      linarith
    · right; right
      have : eta = 1 / 2 := by linarith
      subst this
      linarith
    · right; left; subst h; linarith
  · rintro (h | h | h)
    · right; left
      have hy := ex.1 h
      subst h hy
      norm_num at *
      subst e
      constructor <;> linarith
    · left
      subst h
      have : eta = 0 := by
        have : eta * s = 0 := by linarith
        exact (mul_eq_zero.1 this).resolve_right s0.ne'
      subst this
      constructor <;> linarith
    · right; right; right; left
      subst h
      have : eta = 1 / 2 := mul_right_cancel₀ s0.ne' (by linarith)
      subst this
      constructor <;> linarith

theorem abs_MCLC1 {x y s q zeta eta psi phi : ℝ} (e : s = 1 - x * y) (s0 : 0 < s) (x0 : 0 ≤ x) (x1 : x ≤ 1)
    (y1 : y ≤ 1 / 2) (ex : x = 0 ↔ y = 0)
    (h1 : 4 * zeta * s = 2 - x) (h2 : eta = 1 / 2 + 2 * zeta * y) (q0 : 0 < q) (q1 : q < 1 / 4)
    (h3 : psi = 3 / 4 - q) (h4 : phi = psi + q * x) :
    SameEnds "GAMMA-Y-F-L-I|I1-Z-F1|Y-X1|X-GAMMA-N|M-GAMMA"
      [("GAMMA", ![0, 0, 0]), ("N", ![1 / 2, 0, 0]), ("N1", ![0, -1 / 2, 0]),
       ("F", ![1 - zeta, 1 - zeta, 1 - eta]), ("F1", ![zeta, zeta, eta]),
       ("F2", ![-zeta, -zeta, 1 - eta]), ("F3", ![1 - zeta, -zeta, 1 - eta]),
       ("I", ![phi, 1 - phi, 1 / 2]), ("I1", ![1 - phi, phi - 1, 1 / 2]),
       ("L", ![1 / 2, 1 / 2, 1 / 2]), ("M", ![1 / 2, 0, 1 / 2]), ("X", ![1 - psi, psi - 1, 0]),
       ("X1", ![psi, 1 - psi, 0]), ("X2", ![psi - 1, -psi, 0]), ("Y", ![1 / 2, 1 / 2, 0]),
       ("Y1", ![-1 / 2, -1 / 2, 0]), ("Z", ![0, 0, 1 / 2])] ↔ 
      x = 0 ∨ y = 1 / 2 := by
  unfold SameEnds
  rw [steps_MCLC1]
  simp [PyDict.get?]
  have z0 : 0 < zeta := by
    by_contra hz
    nlinarith [mul_nonneg (not_lt.1 hz |> neg_nonneg.2) s0.le]
  constructor
  · rintro (⟨h, h'⟩ | ⟨h, h'⟩ | ⟨h, h'⟩ | ⟨h, h'⟩ | ⟨h, h'⟩ | ⟨h, h'⟩ | ⟨h, h'⟩)
    · right
      have : zeta = 1 / 2 := by linarith
      subst this
      linarith
    · left
      have : zeta = 1 / 2 := by linarith
      subst this
      exact ex.2 (by linarith)
    · nlinarith
    · nlinarith
    · linarith
    · linarith
    · linarith
  · rintro (h | h)
    · right; left
      have hy := ex.1 h
      subst h hy
      norm_num at *
      subst e
      constructor <;> linarith
    · left
      have hz : zeta = 1 / 2 := mul_right_cancel₀ s0.ne' (by rw [h] at e; linarith)
      rw [hz, h] at h2
      constructor <;> linarith


theorem abs_MCLC2 {x y s q zeta eta psi phi : ℝ} (e : s = 1 - x * y) (s0 : 0 < s) (x0 : 0 ≤ x) (x1 : x ≤ 1)
    (y1 : y ≤ 1 / 2) (ex : x = 0 ↔ y = 0)
    (h1 : 4 * zeta * s = 2 - x) (h2 : eta = 1 / 2 + 2 * zeta * y) (q0 : 0 < q)
    (h3 : psi = 3 / 4 - q) (h4 : phi = psi + q * x) :
    SameEnds "GAMMA-Y-F-L-I|I1-Z-F1|N-GAMMA-M"
      [("GAMMA", ![0, 0, 0]), ("N", ![1 / 2, 0, 0]), ("N1", ![0, -1 / 2, 0]),
       ("F", ![1 - zeta, 1 - zeta, 1 - eta]), ("F1", ![zeta, zeta, eta]),
       ("F2", ![-zeta, -zeta, 1 - eta]), ("F3", ![1 - zeta, -zeta, 1 - eta]),
       ("I", ![phi, 1 - phi, 1 / 2]), ("I1", ![1 - phi, phi - 1, 1 / 2]),
       ("L", ![1 / 2, 1 / 2, 1 / 2]), ("M", ![1 / 2, 0, 1 / 2]), ("X", ![1 - psi, psi - 1, 0]),
       ("X1", ![psi, 1 - psi, 0]), ("X2", ![psi - 1, -psi, 0]), ("Y", ![1 / 2, 1 / 2, 0]),
       ("Y1", ![-1 / 2, -1 / 2, 0]), ("Z", ![0, 0, 1 / 2])] ↔ 
      x = 0 ∨ y = 1 / 2 ∨ 4 * q * (1 - x) = 1 := by
  unfold SameEnds
  rw [steps_MCLC2]
  simp [PyDict.get?]
  have z0 : 0 < zeta := by
    by_contra hz
    nlinarith [mul_nonneg (not_lt.1 hz |> neg_nonneg.2) s0.le]
  constructor
  · rintro (⟨h, h'⟩ | ⟨h, h'⟩ | ⟨h, h'⟩ | ⟨h, h'⟩ | ⟨h, h'⟩)
    · right; left
      have : zeta = 1 / 2 := by linarith
      subst this
      linarith
    · left
      have : zeta = 1 / 2 := by linarith
      subst this
      exact ex.2 (by linarith)
    · right; right; linarith
    · nlinarith
    · linarith
  · rintro (h | h | h)
    · right; left
      have hy := ex.1 h
      subst h hy
      norm_num at *
      subst e
      constructor <;> linarith
    · left
      have hz : zeta = 1 / 2 := mul_right_cancel₀ s0.ne' (by rw [h] at e; linarith)
      rw [hz, h] at h2
      constructor <;> linarith
    · right; right; left
      constructor <;> linarith

theorem abs_MCLC3 {x y s q mu delta zeta eta phi psi : ℝ} (e : s = 1 - x * y) (s0 : 0 < s) (x0 : 0 ≤ x) (x1 : x ≤ 1)
    (y1 : y ≤ 1 / 2) (ex : x = 0 ↔ y = 0)
    (q0 : 0 < q) (qs : q * s < 1) (h1 : mu = (1 + q) / 4) (h2 : delta = q * y / 2)
    (h3 : 4 * (zeta - mu + 1 / 4) * s = 1 - x) (h4 : eta = 1 / 2 + 2 * zeta * y)
    (h5 : phi = 1 + zeta - 2 * mu) (h6 : psi = eta - 2 * delta) (h7 : x + q * s < 1) :
    SameEnds "GAMMA-Y-F-H-Z-I-F1|H1-Y1-X-GAMMA-N|M-GAMMA"
      [("GAMMA", ![0, 0, 0]), ("F", ![1 - phi, 1 - phi, 1 - psi]), ("F1", ![phi, phi - 1, psi]),
       ("F2", ![1 - phi, -phi, 1 - psi]), ("H", ![zeta, zeta, eta]),
       ("H1", ![1 - zeta, -zeta, 1 - eta]), ("H2", ![-zeta, -zeta, 1 - eta]),
       ("I", ![1 / 2, -1 / 2, 1 / 2]), ("M", ![1 / 2, 0, 1 / 2]), ("N", ![1 / 2, 0, 0]),
       ("N1", ![0, -1 / 2, 0]), ("X", ![1 / 2, -1 / 2, 0]), ("Y", ![mu, mu, delta]),
       ("Y1", ![1 - mu, -mu, -delta]), ("Y2", ![-mu, -mu, -delta]), ("Y3", ![mu, mu - 1, delta]),
       ("Z", ![0, 0, 1 / 2])] ↔ 
      x = 0 := by
  unfold SameEnds
  rw [steps_MCLC3]
  simp [PyDict.get?]
  have z0 : 0 < zeta := by
    have : 0 ≤ (zeta - mu + 1 / 4) * s := by linarith
    have := nonneg_of_mul_nonneg_left this s0
    linarith
  have key : zeta = mu → x = 0 ∧ y = 0 := by
    rintro rfl
    have : x * (1 - y) = 0 := by linarith
    have hx : x = 0 := (mul_eq_zero.1 this).resolve_right (by linarith)
    exact ⟨hx, ex.1 hx⟩
  have key0 : y = 0 → s = 1 := by
    rintro rfl
    linarith
  constructor
  · rintro (⟨h, -⟩ | ⟨h, h'⟩ | ⟨h, h'⟩ | ⟨h, h'⟩ | ⟨h, h', h''⟩ | ⟨h, h'⟩ | ⟨h, h', h''⟩)
    · linarith
    · exact (key (by linarith)).1
    · exact (key (by linarith)).1
    · linarith
    · by_contra hx
      have hy : y ≠ 0 := fun hy => hx (ex.2 hy)
      have : (2 * zeta - q) * y = 0 := by linarith
      have := (mul_eq_zero.1 this).resolve_right hy
      have hz : zeta = q / 2 := by linarith
      rw [hz, h1] at h3
      nlinarith
    · exact (key h).1
    · have hy : y = 0 := by
        have : q * y = 0 := by linarith
        exact (mul_eq_zero.1 this).resolve_left q0.ne'
      exact ex.2 hy
  · intro h
    right; right; left
    have hy := ex.1 h
    have hs := key0 hy
    subst h hy hs
    constructor <;> linarith

theorem abs_MCLC4 {x y s q mu delta zeta eta phi psi : ℝ} (e : s = 1 - x * y) (s0 : 0 < s) (x0 : 0 ≤ x) (x1 : x ≤ 1)
    (y1 : y ≤ 1 / 2) (ex : x = 0 ↔ y = 0)
    (q0 : 0 < q) (qs : q * s < 1) (h1 : mu = (1 + q) / 4) (h2 : delta = q * y / 2)
    (h3 : 4 * (zeta - mu + 1 / 4) * s = 1 - x) (h4 : eta = 1 / 2 + 2 * zeta * y)
    (h5 : phi = 1 + zeta - 2 * mu) (h6 : psi = eta - 2 * delta) :
    SameEnds "GAMMA-Y-F-H-Z-I|H1-Y1-X-GAMMA-N|M-GAMMA"
      [("GAMMA", ![0, 0, 0]), ("F", ![1 - phi, 1 - phi, 1 - psi]), ("F1", ![phi, phi - 1, psi]),
       ("F2", ![1 - phi, -phi, 1 - psi]), ("H", ![zeta, zeta, eta]),
       ("H1", ![1 - zeta, -zeta, 1 - eta]), ("H2", ![-zeta, -zeta, 1 - eta]),
       ("I", ![1 / 2, -1 / 2, 1 / 2]), ("M", ![1 / 2, 0, 1 / 2]), ("N", ![1 / 2, 0, 0]),
       ("N1", ![0, -1 / 2, 0]), ("X", ![1 / 2, -1 / 2, 0]), ("Y", ![mu, mu, delta]),
       ("Y1", ![1 - mu, -mu, -delta]), ("Y2", ![-mu, -mu, -delta]), ("Y3", ![mu, mu - 1, delta]),
       ("Z", ![0, 0, 1 / 2])] ↔ 
      x = 0 := by
  unfold SameEnds
  rw [steps_MCLC4]
  simp [PyDict.get?]
  have z0 : 0 < zeta := by
    have : 0 ≤ (zeta - mu + 1 / 4) * s := by linarith
    have := nonneg_of_mul_nonneg_left this s0
    linarith
  have key : zeta = mu → x = 0 ∧ y = 0 := by
    rintro rfl
    have : x * (1 - y) = 0 := by linarith
    have hx : x = 0 := (mul_eq_zero.1 this).resolve_right (by linarith)
    exact ⟨hx, ex.1 hx⟩
  have key0 : y = 0 → s = 1 := by
    rintro rfl
    linarith
  constructor
  · rintro (⟨h, -⟩ | ⟨h, h'⟩ | ⟨h, h'⟩ | ⟨h, h'⟩ | ⟨h, h'⟩ | ⟨h, h', h''⟩)
    · linarith
    · exact (key (by linarith)).1
    · exact (key (by linarith)).1
    · linarith
    · exact (key h).1
    · have hy : y = 0 := by
        have : q * y = 0 := by linarith
        exact (mul_eq_zero.1 this).resolve_left q0.ne'
      exact ex.2 hy
  · intro h
    right; right; left
    have hy := ex.1 h
    have hs := key0 hy
    subst h hy hs
    constructor <;> linarith

theorem abs_MCLC5 {x y s q zeta eta mu nu omega delta rho : ℝ} (e : s = 1 - x * y) (s0 : 0 < s) (x1 : x ≤ 1)
    (y1 : y ≤ 1 / 2) (ex : x = 0 ↔ y = 0)
    (y0 : 0 ≤ y) (q0 : 0 < q) (qs : q * s < 1) (h7 : 1 < x + q * s) (h1 : (4 * zeta - q) * s = 1 - x)
    (h2 : eta = 1 / 2 + 2 * zeta * y) (h3 : mu = eta / 2 + q / 4 - q * y / 2)
    (h4 : nu = 2 * mu - zeta) (h5 : 2 * omega * x = 4 * nu - 1 - q * s)
    (h8 : (1 - rho) * q = zeta) :
    ¬ SameEnds "GAMMA-Y-F-L-I|I1-Z-H-F1|H1-Y1-X-GAMMA-N|M-GAMMA"
      [("GAMMA", ![0, 0, 0]), ("F", ![nu, nu, omega]), ("F1", ![1 - nu, 1 - nu, 1 - omega]),
       ("F2", ![nu, nu - 1, omega]), ("H", ![zeta, zeta, eta]),
       ("H1", ![1 - zeta, -zeta, 1 - eta]), ("H2", ![-zeta, -zeta, 1 - eta]),
       ("I", ![rho, 1 - rho, 1 / 2]), ("I1", ![1 - rho, rho - 1, 1 / 2]),
       ("L", ![1 / 2, 1 / 2, 1 / 2]), ("M", ![1 / 2, 0, 1 / 2]), ("N", ![1 / 2, 0, 0]),
       ("N1", ![0, -1 / 2, 0]), ("X", ![1 / 2, -1 / 2, 0]), ("Y", ![mu, mu, delta]),
       ("Y1", ![1 - mu, -mu, -delta]), ("Y2", ![-mu, -mu, -delta]), ("Y3", ![mu, mu - 1, delta]),
       ("Z", ![0, 0, 1 / 2])] := by
  unfold SameEnds
  rw [steps_MCLC5]
  simp [PyDict.get?]
  have x0 : 0 < x := by linarith
  have y0 : 0 < y := lt_of_le_of_ne y0 (fun h => x0.ne' (ex.2 h.symm))
  have z0 : q ≤ 4 * zeta := by
    have : 0 ≤ (4 * zeta - q) * s := by linarith
    have := nonneg_of_mul_nonneg_left this s0
    linarith
  have hmu : 4 * mu = 1 + 4 * zeta * y + q - 2 * q * y := by linarith
  have m0 : 0 < mu := by nlinarith
  -- `mu = zeta` says `x (1 - 2 y) = y (q s - 1)`
  have key : mu ≠ zeta := by
    intro h
    rw [h] at hmu
    have e1 : 4 * zeta * s * (1 - y) = s + q * s - 2 * q * s * y := by linear_combination s * hmu
    have e2 : 4 * zeta * s = 1 - x + q * s := by linarith
    rw [e2] at e1
    have e3 : x * (1 - 2 * y) = y * (q * s - 1) := by
      linear_combination -e - e1
    have : y * (q * s - 1) < 0 := mul_neg_of_pos_of_neg y0 (by linarith)
    have : 0 ≤ x * (1 - 2 * y) := mul_nonneg x0.le (by linarith)
    linarith
  have half : mu ≠ 1 / 2 := by
    intro h
    rw [h] at hmu
    have e2 : 4 * zeta * s = 1 - x + q * s := by linarith
    have e3 : (1 - y) * (q * s - 1) = 0 := by
      linear_combination -y * e2 - s * hmu + e
    rcases mul_eq_zero.1 e3 with h | h <;> linarith
  refine ⟨fun h => absurd h m0.ne, fun h => absurd (by linarith) key, fun h h' => ?_, fun h h' => ?_,
    fun h => ?_, fun h => ?_, fun h => absurd (by linarith) half, fun h => absurd h.symm key,
    fun h => absurd (by linarith) half⟩
  · rw [h, h'] at h5
    linarith
  · have hr : rho = 1 / 2 := by linarith
    rw [hr] at h8
    rw [← h8] at h1
    linarith
  · rw [h] at h8
    linarith
  · linarith

/-- The sizes of a monoclinic cell: `x = b cos / c`, `y = c cos / b`, `s = sin ^ 2`. -/
theorem mono_facts {b c al : ℝ} (hb : 0 < b) (hc : 0 < c) (h0 : 0 < al) (h90 : al ≤ 90) :
    ∃ x y s, b * Real.cos (al * toRadians) / c = x ∧ c * Real.cos (al * toRadians) / b = y ∧
      Real.sin (al * toRadians) ^ 2 = s ∧ s = 1 - x * y ∧ 0 < s ∧ 0 ≤ x ∧ 0 ≤ y ∧
      (x = 0 ↔ al = 90) ∧ (y = 0 ↔ al = 90) := by
  have hs0 : 0 < Real.sin (al * toRadians) := sin_deg_pos ⟨h0, by linarith⟩
  have hc0 : 0 ≤ Real.cos (al * toRadians) := cos_deg_nonneg h0.le h90
  have e : Real.cos (al * toRadians) = 0 ↔ al = 90 := by
    constructor
    · intro h
      by_contra hne
      have : 0 < Real.cos (al * toRadians) := by
        apply Real.cos_pos_of_mem_Ioo
        have := lt_of_le_of_ne h90 hne
        unfold toRadians
        constructor <;> nlinarith [Real.pi_pos]
      linarith
    · rintro rfl
      unfold toRadians
      rw [show (90 : ℝ) * (Real.pi / 180) = Real.pi / 2 by ring, Real.cos_pi_div_two]
  refine ⟨_, _, _, rfl, rfl, rfl, ?_, by positivity, by positivity, by positivity, ?_, ?_⟩
  · rw [Real.sin_sq]
    field_simp
  · rw [← e, div_eq_zero_iff, mul_eq_zero]
    simp [hb.ne', hc.ne']
  · rw [← e, div_eq_zero_iff, mul_eq_zero]
    simp [hb.ne', hc.ne']

theorem lt_one_of {x y : ℝ} (hx : 0 < x) (hy : 0 < y) (h : x < y) : x ^ 2 / y ^ 2 < 1 := by
  rw [div_lt_one (by positivity)]
  exact pow_lt_pow_left₀ h hx.le two_ne_zero

theorem sq_ratio_one {x y : ℝ} (hx : 0 < x) (hy : 0 < y) : x ^ 2 / y ^ 2 = 1 ↔ x = y := by
  rw [div_eq_one_iff_eq (by positivity), sq_eq_sq₀ hx.le hy.le]

theorem zero_BCT1 {a c : ℝ} (ha : 0 < a) (hc : 0 < c) (h : c < a) :
    ¬ SameEnds "GAMMA-X-M-GAMMA-Z-P-N-Z1-M|X-P" (scTable6 a c) := by
  have := lt_one_of hc ha h
  have : 0 < c ^ 2 / a ^ 2 := by positivity
  exact abs_BCT1 (by linarith) (by linarith)

theorem zero_BCT2 {a c : ℝ} (ha : 0 < a) (hc : 0 < c) (h : a < c) :
    ¬ SameEnds "GAMMA-X-Y-SIGMA-GAMMA-Z-SIGMA1-N-P-Y1-Z|X-P" (scTable7 a c) := by
  have h1 := lt_one_of ha hc h
  have h0 : 0 < a ^ 2 / c ^ 2 := by positivity
  have e : a ^ 2 / (2 * c ^ 2) = a ^ 2 / c ^ 2 / 2 := by ring
  exact abs_BCT2 (by linarith) (by linarith) (by linarith) (by linarith)

section
variable {a b c : ℝ} (ha : 0 < a) (hb : 0 < b) (hc : 0 < c) (h1 : a < b) (h2 : b < c)
include ha hb hc h1 h2

theorem zero_ORCF1 (h3 : 0 < 1 / a ^ 2 - 1 / b ^ 2 - 1 / c ^ 2) :
    ¬ SameEnds "GAMMA-Y-T-Z-GAMMA-X-A1-Y|T-X1|X-A-Z|L-GAMMA" (scTable9 a b c) := by
  have e1 := lt_one_of ha hb h1
  have e2 := lt_one_of ha hc (h1.trans h2)
  have p1 : 0 < a ^ 2 / b ^ 2 := by positivity
  have p2 : 0 < a ^ 2 / c ^ 2 := by positivity
  have e3 : a ^ 2 / b ^ 2 + a ^ 2 / c ^ 2 = 1 - a ^ 2 * (1 / a ^ 2 - 1 / b ^ 2 - 1 / c ^ 2) := by
    field_simp
    ring
  have : 0 < a ^ 2 * (1 / a ^ 2 - 1 / b ^ 2 - 1 / c ^ 2) := by positivity
  exact abs_ORCF1 (by linarith) (by linarith) (by linarith) (by linarith)

theorem zero_ORCF3 :
    ¬ SameEnds "GAMMA-Y-T-Z-GAMMA-X-A1-Y|X-A-Z|L-GAMMA" (scTable9 a b c) := by
  have e1 := lt_one_of ha hb h1
  have e2 := lt_one_of ha hc (h1.trans h2)
  have p1 : 0 < a ^ 2 / b ^ 2 := by positivity
  have p2 : 0 < a ^ 2 / c ^ 2 := by positivity
  exact abs_ORCF3 (by linarith) (by linarith) (by linarith)

theorem zero_ORCF2 (h3 : 1 / a ^ 2 - 1 / b ^ 2 - 1 / c ^ 2 < 0) :
    ¬ SameEnds "GAMMA-Y-C-D-X-GAMMA-Z-D1-H-C|C1-Z|X-H1|H-Y|L-GAMMA" (scTable10 a b c) := by
  have e1 := lt_one_of ha hb h1
  have e2 := lt_one_of ha hc (h1.trans h2)
  have e3 := lt_one_of hb hc h2
  have p1 : 0 < a ^ 2 / b ^ 2 := by positivity
  have p2 : 0 < a ^ 2 / c ^ 2 := by positivity
  have p3 : 0 < b ^ 2 / a ^ 2 := by positivity
  have p4 : 0 < b ^ 2 / c ^ 2 := by positivity
  have p5 : c ^ 2 / b ^ 2 < c ^ 2 / a ^ 2 :=
    div_lt_div_of_pos_left (by positivity) (by positivity) (pow_lt_pow_left₀ h1 ha.le two_ne_zero)
  have p6 : b ^ 2 * (1 / a ^ 2 - 1 / b ^ 2 - 1 / c ^ 2) < 0 :=
    mul_neg_of_pos_of_neg (by positivity) h3
  have p7 : c ^ 2 * (1 / a ^ 2 - 1 / b ^ 2 - 1 / c ^ 2) < 0 :=
    mul_neg_of_pos_of_neg (by positivity) h3
  have f1 : b ^ 2 * (1 / a ^ 2 - 1 / b ^ 2 - 1 / c ^ 2) = b ^ 2 / a ^ 2 - 1 - b ^ 2 / c ^ 2 := by
    field_simp
  have f2 : c ^ 2 * (1 / a ^ 2 - 1 / b ^ 2 - 1 / c ^ 2) = c ^ 2 / a ^ 2 - c ^ 2 / b ^ 2 - 1 := by
    field_simp
  have p8 : 1 < b ^ 2 / a ^ 2 := by
    rw [one_lt_div (by positivity)]
    exact pow_lt_pow_left₀ h1 ha.le two_ne_zero
  exact abs_ORCF2 (by linarith) (by linarith) (by linarith) (by linarith) (by linarith)
    (by linarith)

end

theorem zero_ORCI {a b c : ℝ} (ha : 0 < a) (hb : 0 < b) (hc : 0 < c) :
    SameEnds "GAMMA-X-L-T-W-R-X1-Z-GAMMA-Y-S-W|L1-Y|Y1-Z" (scTable11 a b c) ↔ a = c ∨ b = c := by
  rw [← sq_ratio_one ha hc, ← sq_ratio_one hb hc]
  exact abs_ORCI (by positivity) (by positivity) rfl rfl (by ring) (by ring)

theorem zero_ORCC {a b : ℝ} (ha : 0 < a) (hb : 0 < b) :
    SameEnds "GAMMA-X-S-R-A-Z-GAMMA-Y-X1-A1-T-Y|Z-T" (scTable12 a b) ↔ a = b := by
  rw [← sq_ratio_one ha hb]
  exact abs_ORCC (by positivity) rfl

theorem zero_RHL1 {al : ℝ} (h0 : 0 < al) (h90 : al < 90) :
    ¬ SameEnds "GAMMA-L-B1|B-Z-GAMMA-X|Q-F-P1-Z|L-P" (scTable14 al) := by
  have hc : 0 < Real.cos (al * toRadians) := by
    apply Real.cos_pos_of_mem_Ioo
    unfold toRadians
    constructor <;> nlinarith [Real.pi_pos]
  refine abs_RHL1 ?_ ?_ rfl
  · rw [div_lt_div_iff₀ (by norm_num) (by positivity)]
    linarith
  · rw [div_lt_one (by positivity)]
    linarith

theorem zero_RHL2 {al : ℝ} (h90 : 90 < al) (h180 : al < 180) :
    ¬ SameEnds "GAMMA-P-Z-Q-GAMMA-F-P1-Q1-L-Z" (scTable15 al) := by
  have ht : 1 < Real.tan (al * toRadians / 2) := by
    rw [← Real.tan_pi_div_four]
    apply Real.tan_lt_tan_of_lt_of_lt_pi_div_two
    · linarith [Real.pi_pos]
    · unfold toRadians
      nlinarith [Real.pi_pos]
    · unfold toRadians
      nlinarith [Real.pi_pos]
  have ht2 : 1 < Real.tan (al * toRadians / 2) ^ 2 := by nlinarith
  refine abs_RHL2 ?_ ?_ rfl
  · positivity
  · rw [div_lt_div_iff₀ (by positivity) (by norm_num)]
    linarith

section
variable {a b c al : ℝ} (ha : 0 < a) (hb : 0 < b) (hc : 0 < c) (h0 : 0 < al) (h90 : al ≤ 90)
  (k1 : b * Real.cos (al * toRadians) ≤ c)
include hb hc h0 h90 k1

theorem zero_MCL (k2 : c * Real.cos (al * toRadians) ≤ b) :
    SameEnds "GAMMA-Y-H-C-E-M1-A-X-H1|M-D-Z|Y-D" (scTable16 b c al) ↔
      al = 90 ∨ b * Real.cos (al * toRadians) = c ∨ c * Real.cos (al * toRadians) = b := by
  rw [← div_eq_one_iff_eq hc.ne', ← div_eq_one_iff_eq (a := c * _) hb.ne']
  obtain ⟨x, y, s, hx, hy, hs, e, s0, x0, y0, ex, ey⟩ := mono_facts hb hc h0 h90
  rw [← ex, hx, hy]
  refine abs_MCL e s0 (ex.trans ey.symm) ?_ ?_
  · rw [hx, hs]
    field_simp
  · rw [← hy]
    ring

include ha

theorem zero_MCLC1 (k2 : 2 * c * Real.cos (al * toRadians) ≤ b)
    (hq : 1 < b ^ 2 * Real.sin (al * toRadians) ^ 2 / a ^ 2) :
    SameEnds "GAMMA-Y-F-L-I|I1-Z-F1|Y-X1|X-GAMMA-N|M-GAMMA" (scTable17 a b c al) ↔
      al = 90 ∨ b = 2 * c * Real.cos (al * toRadians) := by
  have eb : b = 2 * c * Real.cos (al * toRadians) ↔ c * Real.cos (al * toRadians) / b = 1 / 2 := by
    rw [div_eq_div_iff hb.ne' two_ne_zero]
    constructor <;> intro h <;> linarith
  have lb : c * Real.cos (al * toRadians) / b ≤ 1 / 2 := by
    rw [div_le_div_iff₀ hb two_pos]
    linarith
  rw [← div_le_one hc] at k1
  obtain ⟨x, y, s, hx, hy, hs, e, s0, x0, y0, ex, ey⟩ := mono_facts hb hc h0 h90
  rw [eb, ← ex, hy]
  rw [hx] at k1
  rw [hy] at lb
  rw [hs, one_lt_div (by positivity)] at hq
  refine abs_MCLC1 (q := a ^ 2 / (4 * b ^ 2 * s)) e s0 x0 k1 lb (ex.trans ey.symm) ?_ ?_ (by positivity) ?_ ?_ ?_
  · rw [hx, hs]
    field_simp
  · rw [← hy]
    ring
  · rw [div_lt_div_iff₀ (by positivity) (by norm_num)]
    linarith
  · rw [hs]
  · rw [hs, ← hx]
    ring

theorem zero_MCLC2 (k2 : 2 * c * Real.cos (al * toRadians) ≤ b) :
    SameEnds "GAMMA-Y-F-L-I|I1-Z-F1|N-GAMMA-M" (scTable17 a b c al) ↔
      al = 90 ∨ b = 2 * c * Real.cos (al * toRadians) ∨ b * Real.cos (al * toRadians) / c +
        b ^ 2 * Real.sin (al * toRadians) ^ 2 / a ^ 2 = 1 := by
  have eb : b = 2 * c * Real.cos (al * toRadians) ↔ c * Real.cos (al * toRadians) / b = 1 / 2 := by
    rw [div_eq_div_iff hb.ne' two_ne_zero]
    constructor <;> intro h <;> linarith
  have lb : c * Real.cos (al * toRadians) / b ≤ 1 / 2 := by
    rw [div_le_div_iff₀ hb two_pos]
    linarith
  rw [← div_le_one hc] at k1
  obtain ⟨x, y, s, hx, hy, hs, e, s0, x0, y0, ex, ey⟩ := mono_facts hb hc h0 h90
  rw [eb, ← ex, hy, hx, hs]
  rw [hx] at k1
  rw [hy] at lb
  have e4 : x + b ^ 2 * s / a ^ 2 = 1 ↔ 4 * (a ^ 2 / (4 * b ^ 2 * s)) * (1 - x) = 1 := by
    field_simp
    constructor <;> intro h <;> linarith
  rw [e4]
  refine abs_MCLC2 e s0 x0 k1 lb (ex.trans ey.symm) ?_ ?_ (by positivity) ?_ ?_
  · rw [hx, hs]
    field_simp
  · rw [← hy]
    ring
  · rw [hs]
  · rw [hs, ← hx]
    ring

theorem zero_MCLC3 (k2 : 2 * c * Real.cos (al * toRadians) ≤ b)
    (hq : b ^ 2 * Real.sin (al * toRadians) ^ 2 / a ^ 2 < 1)
    (h7 : b * Real.cos (al * toRadians) / c + b ^ 2 * Real.sin (al * toRadians) ^ 2 / a ^ 2 < 1) :
    SameEnds "GAMMA-Y-F-H-Z-I-F1|H1-Y1-X-GAMMA-N|M-GAMMA" (scTable18 a b c al) ↔ al = 90 := by
  have lb : c * Real.cos (al * toRadians) / b ≤ 1 / 2 := by
    rw [div_le_div_iff₀ hb two_pos]
    linarith
  rw [← div_le_one hc] at k1
  obtain ⟨x, y, s, hx, hy, hs, e, s0, x0, y0, ex, ey⟩ := mono_facts hb hc h0 h90
  rw [← ex]
  rw [hx] at k1 h7
  rw [hy] at lb
  rw [hs, mul_div_right_comm] at hq h7
  refine abs_MCLC3 (q := b ^ 2 / a ^ 2) e s0 x0 k1 lb (ex.trans ey.symm) (by positivity) hq rfl ?_ ?_ ?_ rfl rfl h7
  · rw [← hy]
    field_simp
  · rw [hx, hs]
    field_simp
    ring
  · rw [← hy]
    ring

theorem zero_MCLC4 (k2 : 2 * c * Real.cos (al * toRadians) ≤ b)
    (hq : b ^ 2 * Real.sin (al * toRadians) ^ 2 / a ^ 2 < 1) :
    SameEnds "GAMMA-Y-F-H-Z-I|H1-Y1-X-GAMMA-N|M-GAMMA" (scTable18 a b c al) ↔ al = 90 := by
  have lb : c * Real.cos (al * toRadians) / b ≤ 1 / 2 := by
    rw [div_le_div_iff₀ hb two_pos]
    linarith
  rw [← div_le_one hc] at k1
  obtain ⟨x, y, s, hx, hy, hs, e, s0, x0, y0, ex, ey⟩ := mono_facts hb hc h0 h90
  rw [← ex]
  rw [hx] at k1
  rw [hy] at lb
  rw [hs, mul_div_right_comm] at hq
  refine abs_MCLC4 (q := b ^ 2 / a ^ 2) e s0 x0 k1 lb (ex.trans ey.symm) (by positivity) hq rfl ?_ ?_ ?_ rfl rfl
  · rw [← hy]
    field_simp
  · rw [hx, hs]
    field_simp
    ring
  · rw [← hy]
    ring

theorem zero_MCLC5 (k2 : 2 * c * Real.cos (al * toRadians) ≤ b)
    (hq : b ^ 2 * Real.sin (al * toRadians) ^ 2 / a ^ 2 < 1)
    (h7 : 1 < b * Real.cos (al * toRadians) / c + b ^ 2 * Real.sin (al * toRadians) ^ 2 / a ^ 2) :
    ¬ SameEnds "GAMMA-Y-F-L-I|I1-Z-H-F1|H1-Y1-X-GAMMA-N|M-GAMMA" (scTable19 a b c al) := by
  have lb : c * Real.cos (al * toRadians) / b ≤ 1 / 2 := by
    rw [div_le_div_iff₀ hb two_pos]
    linarith
  rw [← div_le_one hc] at k1
  have hne : 0 < Real.cos (al * toRadians) := by
    refine lt_of_le_of_ne (cos_deg_nonneg h0.le h90) fun h => ?_
    rw [← h, mul_zero, zero_div] at h7
    linarith
  obtain ⟨x, y, s, hx, hy, hs, e, s0, x0, y0, ex, ey⟩ := mono_facts hb hc h0 h90
  rw [hx] at k1 h7
  rw [hy] at lb
  have hq' := hq
  have h7' := h7
  rw [hs, mul_div_right_comm] at hq' h7'
  refine abs_MCLC5 (q := b ^ 2 / a ^ 2) (s := s) e s0 k1 lb (ex.trans ey.symm) y0 (by positivity) hq' h7' ?_ ?_ ?_ rfl ?_ ?_
  · rw [hx, hs]
    field_simp
    ring
  · rw [← hy]
    ring
  · rw [← hy]
    field_simp
  · rw [hs, ← hx]
    field_simp
  · field_simp
    ring

end

end Wulfric
