import Verif.Model.Stft
import Mathlib.Analysis.SpecialFunctions.Trigonometric.Basic

/-!
# Model of the spectrogram used by pycomlink/processing/wet_dry/stft.py

`stft_classification` calls `matplotlib.mlab.specgram(rsl, NFFT=..., Fs=f_sampling, noverlap=NFFT-1,
window=window)` (stft.py L107-113). This is its documented computation for real input and the defaults of the
other arguments (power spectral density, one-sided, no detrending, no padding), in exact arithmetic.
-/

namespace Verif.Stft
open Verif

/-- `np.hamming(M)` (stft.py L108) -/
noncomputable def hamming (M : Nat) : List ℝ :=
  if M = 1 then [1]
  else (List.range M).map fun (j : Nat) =>
    0.54 + 0.46 * Real.cos (Real.pi * ((1 : ℝ) - M + 2 * j) / ((M : ℝ) - 1))

/-- `np.fft.fft(y)[k]` of a real array: real and imaginary part -/
noncomputable def dft (y : List (Fl ℝ)) (k : Nat) : Fl ℝ × Fl ℝ :=
  (fsum ((List.range y.length).map fun m =>
      rd y m *ᶠ .fin (Real.cos (2 * Real.pi * k * m / y.length))),
   fsum ((List.range y.length).map fun m =>
      rd y m *ᶠ .fin (-Real.sin (2 * Real.pi * k * m / y.length))))

/-- Power spectral density of one segment at frequency number `k`: windowing, squared modulus, the factor 2
for frequencies which stand for two, division by the sampling frequency and the window's power. -/
noncomputable def psd (w : List ℝ) (fs : ℝ) (k : Nat) (seg : List (Fl ℝ)) : Fl ℝ :=
  let d := dft (List.zipWith (fun x v => x *ᶠ .fin v) seg w) k
  (((d.1 *ᶠ d.1 +ᶠ d.2 *ᶠ d.2) *ᶠ .fin (if k = 0 ∨ 2 * k = w.length then 1 else 2)) /ᶠ .fin fs) /ᶠ
    .fin ((w.map fun v => v ^ 2).sum)

/-- number of frequencies of a one-sided spectrum -/
def numFreqs (nfft : Nat) : Nat := if nfft % 2 = 1 then (nfft + 1) / 2 else nfft / 2 + 1

/-- `mlab.specgram(rsl, NFFT=nfft, Fs=fs, noverlap=nfft-1, window=w)`: rows of the spectrogram and frequencies.
A series shorter than the window is padded with zeros. `nfft = 0` is rejected by `np.fft.fft`. -/
noncomputable def specgram (w : List ℝ) (fs : ℝ) (rsl : List (Fl ℝ)) (nfft : Nat) :
    Except Err (List (List (Fl ℝ)) × List (Fl ℝ)) :=
  if w.length ≠ nfft ∨ nfft = 0 then .error .valueError
  else
    let x := rsl ++ List.replicate (nfft - rsl.length) (.fin 0)
    .ok ((List.range (numFreqs nfft)).map fun k =>
          (List.range (x.length - nfft + 1)).map fun j => psd w fs k (slice x j (j + nfft)),
        (List.range (numFreqs nfft)).map fun (k : Nat) => .fin (k * fs / nfft))

/-- `stft_classification` (stft.py L23-196) with that spectrogram; `window=None` is the Hamming window of length
`window_length` (L107-108). -/
noncomputable def stft (hasFind : Bool) (rsl : List (Fl ℝ)) (windowLength : Nat)
    (threshold fDivide : Fl ℝ) (window : Option (List ℝ)) (fs : ℝ) (a : Args (Fl ℝ)) :
    Except Err (List Bool × Info (Fl ℝ)) :=
  stftClassification hasFind (specgram (window.getD (hamming windowLength)) fs) rsl windowLength
    threshold fDivide a

end Verif.Stft
