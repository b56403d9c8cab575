import Mathlib.Algebra.Order.Field.Rat
import Mathlib.MeasureTheory.Integral.IntervalIntegral.Basic
import Verif.Atmos

/-!
Model of the solar spectrum: `solar_data` and `solint` of `smrf/envphys/solar/irradiance.py`. The spectrum between the points of the
table is the interpolation of Akima as scipy computes it (`Akima1DInterpolator`; the rules of the library are an assumption), in exact
arithmetic. The quadrature of scipy is taken as the integral. Wavelengths outside of the table (NaN) are not modelled.
-/

namespace Verif.Spectrum

/-- `solar_data`: wavelengths in micrometres and irradiance as a part of the solar constant. irradiance.py 79-255. -/
def table : List (ℚ × ℚ) := [
  (0.00e0, 0.0000000000000000e0), (1.20e-1, 7.2064702602003287e-5), (1.40e-1, 2.1619410780600986e-5),
  (1.50e-1, 5.0445291821402301e-5), (1.60e-1, 1.6574881598460755e-4), (1.70e-1, 4.5400762639262068e-4),
  (1.80e-1, 9.0080878252504105e-4), (1.90e-1, 1.9529534405142891e-3), (2.00e-1, 7.7109231784143517e-3),
  (2.10e-1, 1.6502816895858752e-2), (2.20e-1, 4.1437203996151890e-2), (2.25e-1, 4.6769991988700132e-2),
  (2.30e-1, 4.8067156635536191e-2), (2.35e-1, 4.2734368642987949e-2), (2.40e-1, 4.5400762639262071e-2),
  (2.45e-1, 5.2102779981248376e-2), (2.50e-1, 5.0733550631810313e-2), (2.55e-1, 7.4947290706083422e-2),
  (2.60e-1, 9.3684113382604272e-2), (2.65e-1, 1.3331969981370607e-1), (2.70e-1, 1.6719011003664763e-1),
  (2.75e-1, 1.4701199330808671e-1), (2.80e-1, 1.5998363977644729e-1), (2.85e-1, 2.2700381319631035e-1),
  (2.90e-1, 3.4735186654165584e-1), (2.95e-1, 4.2085786319569921e-1), (3.00e-1, 3.7041257137429690e-1),
  (3.05e-1, 4.3455015669007980e-1), (3.10e-1, 4.9652580092780263e-1), (3.15e-1, 5.5057432787930508e-1),
  (3.20e-1, 5.9813703159662727e-1), (3.25e-1, 7.0263085036953205e-1), (3.30e-1, 7.6316520055521482e-1),
  (3.35e-1, 7.7901943512765555e-1), (3.40e-1, 7.7397490594551530e-1), (3.45e-1, 7.7037167081541515e-1),
  (3.50e-1, 7.8766719943989590e-1), (3.55e-1, 7.8046072917969557e-1), (3.60e-1, 7.6965102378939508e-1),
  (3.65e-1, 8.1577243345467720e-1), (3.70e-1, 8.5108413772965880e-1), (3.75e-1, 8.3378860910517805e-1),
  (3.80e-1, 8.0712466914243679e-1), (3.85e-1, 7.9127043456999609e-1), (3.90e-1, 7.9127043456999609e-1),
  (3.95e-1, 8.5684931393781909e-1), (4.00e-1, 1.0298046001826270e0), (4.05e-1, 1.1847437107769340e0),
  (4.10e-1, 1.2618529425610776e0), (4.15e-1, 1.2784278241595383e0), (4.20e-1, 1.2589703544569974e0),
  (4.25e-1, 1.2200554150519156e0), (4.30e-1, 1.1811404756468339e0), (4.35e-1, 1.1984360042713147e0),
  (4.40e-1, 1.3043711170962595e0), (4.45e-1, 1.3850835840105032e0), (4.50e-1, 1.4456179341961859e0),
  (4.55e-1, 1.4823709325232076e0), (4.60e-1, 1.4888567557573879e0), (4.65e-1, 1.4758851092890273e0),
  (4.70e-1, 1.4650754038987267e0), (4.75e-1, 1.4730025211849472e0), (4.80e-1, 1.4946219319655481e0),
  (4.85e-1, 1.4239985234155849e0), (4.90e-1, 1.4052617007390641e0), (4.95e-1, 1.4124681709992644e0),
  (5.00e-1, 1.3994965245309039e0), (5.05e-1, 1.3836422899584631e0), (5.10e-1, 1.3562577029697018e0),
  (5.15e-1, 1.3209459986947202e0), (5.20e-1, 1.3209459986947202e0), (5.25e-1, 1.3346382921891008e0),
  (5.30e-1, 1.3274318219289006e0), (5.35e-1, 1.3101362933044197e0), (5.40e-1, 1.2849136473937186e0),
  (5.45e-1, 1.2640148836391377e0), (5.50e-1, 1.2431161198845568e0), (5.55e-1, 1.2395128847544565e0),
  (5.60e-1, 1.2214967091039557e0), (5.65e-1, 1.2287031793641560e0), (5.70e-1, 1.2337477085462963e0),
  (5.75e-1, 1.2387922377284365e0), (5.80e-1, 1.2359096496243563e0), (5.85e-1, 1.2337477085462963e0),
  (5.90e-1, 1.2250999442340559e0), (5.95e-1, 1.2121282977656953e0), (6.00e-1, 1.2005979453493748e0),
  (6.05e-1, 1.1869056518549941e0), (6.10e-1, 1.1782578875427537e0), (6.20e-1, 1.1544765356840926e0),
  (6.30e-1, 1.1314158308514516e0), (6.40e-1, 1.1126790081749307e0), (6.50e-1, 1.0888976563162696e0),
  (6.60e-1, 1.0708814806657688e0), (6.70e-1, 1.0492620698851678e0), (6.80e-1, 1.0283633061305869e0),
  (6.90e-1, 1.0103471304800861e0), (7.00e-1, 9.8656577862142496e-1), (7.10e-1, 9.6854960297092417e-1),
  (7.20e-1, 9.4693019219032319e-1), (7.30e-1, 9.2963466356584240e-1), (7.40e-1, 9.0801525278524139e-1),
  (7.50e-1, 8.8999907713474059e-1), (8.00e-1, 7.9775625780417640e-1), (8.50e-1, 7.1199926170779244e-1),
  (9.00e-1, 6.4065520613180922e-1), (9.50e-1, 6.0174026672672744e-1), (1.00e0, 5.3760268141094450e-1),
  (1.10e0, 4.2662303940385946e-1), (1.20e0, 3.4879316059369590e-1), (1.30e0, 2.8537622230393302e-1),
  (1.40e0, 2.4213740074273104e-1), (1.50e0, 2.0682569646774943e-1), (1.60e0, 1.7583787434888801e-1),
  (1.70e0, 1.4557069925604664e-1), (1.80e0, 1.1458287713718522e-1), (1.90e0, 9.0801525278524142e-2),
  (2.00e0, 7.4226643680063386e-2), (2.10e0, 6.4858232341802959e-2), (2.20e0, 5.6931115055582595e-2),
  (2.30e0, 4.9003997769362232e-2), (2.40e0, 4.6121409665282103e-2), (2.50e0, 3.8914939405081775e-2),
  (2.60e0, 3.4591057248961578e-2), (2.70e0, 3.0987822118861412e-2), (2.80e0, 2.8105234014781281e-2),
  (2.90e0, 2.5222645910701150e-2), (3.00e0, 2.2340057806621019e-2), (3.10e0, 1.8736822676520856e-2),
  (3.20e0, 1.6286622788052742e-2), (3.30e0, 1.3836422899584630e-2), (3.40e0, 1.1962740631932545e-2),
  (3.50e0, 1.0521446579892480e-2), (3.60e0, 9.7287348512704438e-3), (3.70e0, 8.8639584200464042e-3),
  (3.80e0, 7.9991819888223649e-3), (3.90e0, 7.4226643680063384e-3), (4.00e0, 6.8461467471903120e-3),
  (4.10e0, 6.2696291263742857e-3), (4.20e0, 5.6210468029562563e-3), (4.30e0, 5.1165938847422333e-3),
  (4.40e0, 4.6842056691302139e-3), (4.50e0, 4.2518174535181938e-3), (4.60e0, 3.8194292379061740e-3),
  (4.70e0, 3.4591057248961576e-3), (4.80e0, 3.2429116170901479e-3), (4.90e0, 2.9546528066821346e-3),
  (5.00e0, 2.7600781096567258e-3), (6.00e0, 1.2611322955350576e-3), (7.00e0, 7.1344055575983254e-4),
  (8.00e0, 4.3238821561201970e-4), (9.00e0, 2.7384586988761247e-4), (1.00e1, 1.8016175650500822e-4),
  (1.10e1, 1.2250999442340559e-4), (1.20e1, 8.6477643122403945e-5), (1.30e1, 6.2696291263742856e-5),
  (1.40e1, 3.9635586431101808e-5), (1.50e1, 3.5311704274981611e-5), (1.60e1, 2.7384586988761248e-5),
  (1.70e1, 2.2340057806621018e-5), (1.80e1, 1.7295528624480788e-5), (1.90e1, 1.4412940520400656e-5),
  (2.00e1, 1.1530352416320527e-5), (2.50e1, 4.3959468587222005e-6), (3.00e1, 2.1619410780600985e-6),
  (3.50e1, 1.1530352416320526e-6), (4.00e1, 6.7740820445883089e-7), (5.00e1, 2.7384586988761249e-7),
  (6.00e1, 1.3692293494380625e-7), (8.00e1, 5.0445291821402299e-8), (1.00e2, 2.1619410780600986e-8),
  (1.00e3, 0.0000000000000000e0)]

/-- The slopes between neighbouring points: `m[2:-2]`. -/
def slopes : List (ℚ × ℚ) → List ℚ
  | a :: b :: l => (b.2 - a.2) / (b.1 - a.1) :: slopes (b :: l)
  | _ => []

/-- The two slopes added on the left. -/
def extendLeft : List ℚ → List ℚ
  | a :: b :: l => (2 * (2 * a - b) - a) :: (2 * a - b) :: a :: b :: l
  | l => l

/-- The slopes with two added on either side: `m`. -/
def extended (l : List ℚ) : List ℚ := (extendLeft (extendLeft l).reverse).reverse

/-- `f1 + f2` of each point. -/
def weights : List ℚ → List ℚ
  | a :: b :: c :: d :: l => (|d - c| + |b - a|) :: weights (b :: c :: d :: l)
  | _ => []

/-- The derivative at each point: the mean of the neighbouring slopes with the weights of Akima, or of the outer ones where the weights are
at most `eps`. -/
def derivatives (eps : ℚ) : List ℚ → List ℚ
  | a :: b :: c :: d :: l =>
    (if eps < |d - c| + |b - a| then (|d - c| * b + |b - a| * c) / (|d - c| + |b - a|) else (d + a) / 2) ::
      derivatives eps (b :: c :: d :: l)
  | _ => []

/-- A point of the interpolation: wavelength, value, derivative. -/
structure Knot where
  x : ℚ
  y : ℚ
  t : ℚ
  deriving DecidableEq

/-- `Akima1DInterpolator(wave, val)`: the points with their derivatives. irradiance.py 60-64. -/
def akima (l : List (ℚ × ℚ)) : List Knot :=
  let m := extended (slopes l)
  let eps := (weights m).foldl max 0 / 10 ^ 9
  List.zipWith (fun p t => ⟨p.1, p.2, t⟩) l (derivatives eps m)

/-- The cubic between two points. -/
noncomputable def cubic (a b : Knot) (x : ℝ) : ℝ :=
  let h : ℝ := b.x - a.x
  let m : ℝ := (b.y - a.y) / h
  let d : ℝ := x - a.x
  a.y + a.t * d + (3 * m - 2 * a.t - b.t) / h * d ^ 2 + (a.t + b.t - 2 * m) / h ^ 2 * d ^ 3

/-- The value of the interpolation. -/
noncomputable def eval : List Knot → ℝ → ℝ
  | a :: b :: l, x => if x ≤ b.x ∨ l = [] then cubic a b x else eval (b :: l) x
  | _, _ => 0

/-- The spectrum of the sun. irradiance.py 57-64. -/
noncomputable def spectrum : ℝ → ℝ := eval (akima table)

/-- `solint`, with the solar constant of constants.py 9. irradiance.py 49-76. -/
noncomputable def solint (a b : ℝ) : ℝ := (∫ x in a..b, spectrum x) * 1368

end Verif.Spectrum
