import Verif.Lemmas.EqLin
import Verif.Lemmas.LaneReal

/-!
# Accuracy of the linear arguments of the nutation
-/

namespace Verif
open Real

theorem poly_lin' (a0 a1 a2 a3 a4 t m e D1 D3 : ℝ) (A B : ℤ)
    (h0 : |a0 + a1 * t + a2 * t ^ 2 + a3 * t ^ 3 + a4 * t ^ 4 - (A / 10 ^ 12 + B / 10 ^ 12 * t)| ≤ m)
    (h2 : |a0 + a1 * t + a2 * t ^ 2 + a3 * t ^ 3 + a4 * t ^ 4 - (A / 10 ^ 12 + B / 10 ^ 12 * t) +
      26.3169 * (a2 + 3 * a3 * t + 6 * a4 * t ^ 2)| ≤ m)
    (h1 : |a1 + 2 * a2 * t + 3 * a3 * t ^ 2 + 4 * a4 * t ^ 3 - B / 10 ^ 12| ≤ D1)
    (h3 : |a3 + 4 * a4 * t| ≤ D3) (h4 : |a4| ≤ 1e-7)
    (he : m + 5.13 * D1 + 135.1 * D3 + 692.6 * 1e-7 ≤ e) {T : ℝ} (hT : |T - t| ≤ 5.13) :
    |polyR [dToR a0, dToR a1, dToR a2, dToR a3, dToR a4] T - dToR ((A + B * T) / 10 ^ 12)| ≤ dToR e := by
  rw [show ((A : ℝ) + B * T) / 10 ^ 12 = A / 10 ^ 12 + B / 10 ^ 12 * T by ring]
  refine poly_lin a0 a1 a2 a3 a4 _ _ t m e h0 h2 (le_trans ?_ he) hT
  generalize |a1 + 2 * a2 * t + 3 * a3 * t ^ 2 + 4 * a4 * t ^ 3 - B / 10 ^ 12| = x at *
  generalize |a3 + 4 * a4 * t| = y at *
  generalize |a4| = z at *
  norm_num at *
  linarith

theorem kM5 (T : ℝ) : polyR kM T = polyR [dToR 357.5291092, dToR 35999.0502909, dToR (-0.0001536),
    dToR (1 / 24490000), dToR 0] T := by
  simp [kM, polyR, horner, dToR]

theorem lin0_ok {T : ℝ} (h : |T - (-24.88)| ≤ 5.13) : LinOK lin0 T := by
  refine ⟨?_, ?_, ?_, ?_, ?_⟩
  · exact poly_lin' 297.8501921 445267.1114034 (-0.0018819) (1 / 545868) (-1 / 113065000) (-24.88) 0.027101 0.028 0.000000000002 0.000002712148 lin0.aD lin0.bD
      (by rw [abs_le]; norm_num [lin0]) (by rw [abs_le]; norm_num [lin0]) (by rw [abs_le]; norm_num [lin0])
      (by rw [abs_le]; norm_num) (by rw [abs_le]; norm_num) (by norm_num) h
  · rw [kM5]
    exact poly_lin' 357.5291092 35999.0502909 (-0.0001536) (1 / 24490000) 0 (-24.88) 0.002071 0.0022 0.000000000002 0.000000040834 lin0.aM lin0.bM
      (by rw [abs_le]; norm_num [lin0]) (by rw [abs_le]; norm_num [lin0]) (by rw [abs_le]; norm_num [lin0])
      (by rw [abs_le]; norm_num) (by rw [abs_le]; norm_num) (by norm_num) h
  · exact poly_lin' 134.9633964 477198.8675055 0.0087414 (1 / 69699) (-1 / 14712000) (-24.88) 0.097992 0.1205 0.000000000002 0.000021111956 lin0.aP lin0.bP
      (by rw [abs_le]; norm_num [lin0]) (by rw [abs_le]; norm_num [lin0]) (by rw [abs_le]; norm_num [lin0])
      (by rw [abs_le]; norm_num) (by rw [abs_le]; norm_num) (by norm_num) h
  · exact poly_lin' 93.2720950 483202.0175233 (-0.0036539) (-1 / 3526000) (1 / 863310000) (-24.88) 0.047932 0.0486 0.000000000002 0.000000398886 lin0.aF lin0.bF
      (by rw [abs_le]; norm_num [lin0]) (by rw [abs_le]; norm_num [lin0]) (by rw [abs_le]; norm_num [lin0])
      (by rw [abs_le]; norm_num) (by rw [abs_le]; norm_num) (by norm_num) h
  · exact poly_lin' 125.0445479 (-1934.1362891) 0.0020754 (1 / 467441) (1 / 60616000) (-24.88) 0.026117 0.0284 0.000000000002 0.000000497498 lin0.aO lin0.bO
      (by rw [abs_le]; norm_num [lin0]) (by rw [abs_le]; norm_num [lin0]) (by rw [abs_le]; norm_num [lin0])
      (by rw [abs_le]; norm_num) (by rw [abs_le]; norm_num) (by norm_num) h

theorem lin1_ok {T : ℝ} (h : |T - (-14.88)| ≤ 5.13) : LinOK lin1 T := by
  refine ⟨?_, ?_, ?_, ?_, ?_⟩
  · exact poly_lin' 297.8501921 445267.1114034 (-0.0018819) (1 / 545868) (-1 / 113065000) (-14.88) 0.026096 0.028 0.000000000002 0.000002358369 lin1.aD lin1.bD
      (by rw [abs_le]; norm_num [lin1]) (by rw [abs_le]; norm_num [lin1]) (by rw [abs_le]; norm_num [lin1])
      (by rw [abs_le]; norm_num) (by rw [abs_le]; norm_num) (by norm_num) h
  · rw [kM5]
    exact poly_lin' 357.5291092 35999.0502909 (-0.0001536) (1 / 24490000) 0 (-14.88) 0.002055 0.0022 0.000000000002 0.000000040834 lin1.aM lin1.bM
      (by rw [abs_le]; norm_num [lin1]) (by rw [abs_le]; norm_num [lin1]) (by rw [abs_le]; norm_num [lin1])
      (by rw [abs_le]; norm_num) (by rw [abs_le]; norm_num) (by norm_num) h
  · exact poly_lin' 134.9633964 477198.8675055 0.0087414 (1 / 69699) (-1 / 14712000) (-14.88) 0.105820 0.1205 0.000000000002 0.000018393087 lin1.aP lin1.bP
      (by rw [abs_le]; norm_num [lin1]) (by rw [abs_le]; norm_num [lin1]) (by rw [abs_le]; norm_num [lin1])
      (by rw [abs_le]; norm_num) (by rw [abs_le]; norm_num) (by norm_num) h
  · exact poly_lin' 93.2720950 483202.0175233 (-0.0036539) (-1 / 3526000) (1 / 863310000) (-14.88) 0.048081 0.0486 0.000000000002 0.000000352553 lin1.aF lin1.bF
      (by rw [abs_le]; norm_num [lin1]) (by rw [abs_le]; norm_num [lin1]) (by rw [abs_le]; norm_num [lin1])
      (by rw [abs_le]; norm_num) (by rw [abs_le]; norm_num) (by norm_num) h
  · exact poly_lin' 125.0445479 (-1934.1362891) 0.0020754 (1 / 467441) (1 / 60616000) (-14.88) 0.026445 0.0284 0.000000000002 0.000001157390 lin1.aO lin1.bO
      (by rw [abs_le]; norm_num [lin1]) (by rw [abs_le]; norm_num [lin1]) (by rw [abs_le]; norm_num [lin1])
      (by rw [abs_le]; norm_num) (by rw [abs_le]; norm_num) (by norm_num) h

theorem lin2_ok {T : ℝ} (h : |T - (-4.88)| ≤ 5.13) : LinOK lin2 T := by
  refine ⟨?_, ?_, ?_, ?_, ?_⟩
  · exact poly_lin' 297.8501921 445267.1114034 (-0.0018819) (1 / 545868) (-1 / 113065000) (-4.88) 0.025232 0.028 0.000000000002 0.000002004590 lin2.aD lin2.bD
      (by rw [abs_le]; norm_num [lin2]) (by rw [abs_le]; norm_num [lin2]) (by rw [abs_le]; norm_num [lin2])
      (by rw [abs_le]; norm_num) (by rw [abs_le]; norm_num) (by norm_num) h
  · rw [kM5]
    exact poly_lin' 357.5291092 35999.0502909 (-0.0001536) (1 / 24490000) 0 (-4.88) 0.002038 0.0022 0.000000000002 0.000000040834 lin2.aM lin2.bM
      (by rw [abs_le]; norm_num [lin2]) (by rw [abs_le]; norm_num [lin2]) (by rw [abs_le]; norm_num [lin2])
      (by rw [abs_le]; norm_num) (by rw [abs_le]; norm_num) (by norm_num) h
  · exact poly_lin' 134.9633964 477198.8675055 0.0087414 (1 / 69699) (-1 / 14712000) (-4.88) 0.112570 0.1205 0.000000000002 0.000015674218 lin2.aP lin2.bP
      (by rw [abs_le]; norm_num [lin2]) (by rw [abs_le]; norm_num [lin2]) (by rw [abs_le]; norm_num [lin2])
      (by rw [abs_le]; norm_num) (by rw [abs_le]; norm_num) (by norm_num) h
  · exact poly_lin' 93.2720950 483202.0175233 (-0.0036539) (-1 / 3526000) (1 / 863310000) (-4.88) 0.048211 0.0486 0.000000000002 0.000000306220 lin2.aF lin2.bF
      (by rw [abs_le]; norm_num [lin2]) (by rw [abs_le]; norm_num [lin2]) (by rw [abs_le]; norm_num [lin2])
      (by rw [abs_le]; norm_num) (by rw [abs_le]; norm_num) (by norm_num) h
  · exact poly_lin' 125.0445479 (-1934.1362891) 0.0020754 (1 / 467441) (1 / 60616000) (-4.88) 0.027034 0.0284 0.000000000002 0.000001817282 lin2.aO lin2.bO
      (by rw [abs_le]; norm_num [lin2]) (by rw [abs_le]; norm_num [lin2]) (by rw [abs_le]; norm_num [lin2])
      (by rw [abs_le]; norm_num) (by rw [abs_le]; norm_num) (by norm_num) h

theorem lin3_ok {T : ℝ} (h : |T - 5.12| ≤ 5.13) : LinOK lin3 T := by
  refine ⟨?_, ?_, ?_, ?_, ?_⟩
  · exact poly_lin' 297.8501921 445267.1114034 (-0.0018819) (1 / 545868) (-1 / 113065000) 5.12 0.024508 0.028 0.000000000002 0.000001650811 lin3.aD lin3.bD
      (by rw [abs_le]; norm_num [lin3]) (by rw [abs_le]; norm_num [lin3]) (by rw [abs_le]; norm_num [lin3])
      (by rw [abs_le]; norm_num) (by rw [abs_le]; norm_num) (by norm_num) h
  · rw [kM5]
    exact poly_lin' 357.5291092 35999.0502909 (-0.0001536) (1 / 24490000) 0 5.12 0.002022 0.0022 0.000000000002 0.000000040834 lin3.aM lin3.bM
      (by rw [abs_le]; norm_num [lin3]) (by rw [abs_le]; norm_num [lin3]) (by rw [abs_le]; norm_num [lin3])
      (by rw [abs_le]; norm_num) (by rw [abs_le]; norm_num) (by norm_num) h
  · exact poly_lin' 134.9633964 477198.8675055 0.0087414 (1 / 69699) (-1 / 14712000) 5.12 0.118243 0.1205 0.000000000002 0.000012955349 lin3.aP lin3.bP
      (by rw [abs_le]; norm_num [lin3]) (by rw [abs_le]; norm_num [lin3]) (by rw [abs_le]; norm_num [lin3])
      (by rw [abs_le]; norm_num) (by rw [abs_le]; norm_num) (by norm_num) h
  · exact poly_lin' 93.2720950 483202.0175233 (-0.0036539) (-1 / 3526000) (1 / 863310000) 5.12 0.048324 0.0486 0.000000000002 0.000000259886 lin3.aF lin3.bF
      (by rw [abs_le]; norm_num [lin3]) (by rw [abs_le]; norm_num [lin3]) (by rw [abs_le]; norm_num [lin3])
      (by rw [abs_le]; norm_num) (by rw [abs_le]; norm_num) (by norm_num) h
  · exact poly_lin' 125.0445479 (-1934.1362891) 0.0020754 (1 / 467441) (1 / 60616000) 5.12 0.027885 0.0284 0.000000000002 0.000002477174 lin3.aO lin3.bO
      (by rw [abs_le]; norm_num [lin3]) (by rw [abs_le]; norm_num [lin3]) (by rw [abs_le]; norm_num [lin3])
      (by rw [abs_le]; norm_num) (by rw [abs_le]; norm_num) (by norm_num) h

end Verif
