import Verif.Lemmas.Duration
import Verif.Props.Config
/-!
# C137 for durations with decimal fractions
-/
set_option linter.unusedSimpArgs false

namespace FcRetrieval.Config
open FcRetrieval.Startup (Running gatewayMain providerMain)

/-- **C137** (partial): the timeouts of the connections between nodes are the configured durations, also if these are written with
decimal fractions, such as `1.5s`, as long as a fraction has no more digits than make a whole number of nanoseconds.  Floating-point
arithmetic comes in as what IEEE 754 promises for whole numbers below 2^53.

Missing: fractions of a nanosecond, which are rounded. -/
theorem C137_decimal_partial (frac : Nat → Nat → Nat → Nat) (hx : FloatExact frac) (conf : String → List Char) (s : Settings)
    (h : Configured frac conf s) (n : Nat) (hn : n < 2 ^ 63) :
    (DecimalTimes (conf "TCP_INACTIVITY_TIMEOUT") n → s.timeout = n) ∧ (DecimalTimes (conf "TCP_LONG_INACTIVITY_TIMEOUT") n → s.longTimeout = n) ∧
    (∀ free r, DecimalTimes (conf "TCP_INACTIVITY_TIMEOUT") n → gatewayMain free s = some r → r.timeout = n) ∧
    (∀ free r, DecimalTimes (conf "TCP_INACTIVITY_TIMEOUT") n → providerMain free s = some r → r.timeout = n) := by
  obtain ⟨-, e1, e2, -⟩ := configured_read h
  have key : DecimalTimes (conf "TCP_INACTIVITY_TIMEOUT") n → s.timeout = n := fun ht => by
    rw [e1, duration, parseDuration_decimal frac hx ht hn]; rfl
  refine ⟨key, fun ht => ?_, fun free r ht hr => ?_, fun free r ht hr => ?_⟩
  · rw [e2, duration, parseDuration_decimal frac hx ht hn]; rfl
  · unfold gatewayMain at hr
    simp only at hr
    split at hr
    · cases hr
    · cases hr
      exact key ht
  · unfold providerMain at hr
    simp only at hr
    split at hr
    · cases hr
    · cases hr
      exact key ht

/-- Exact arithmetic is exact where it has to be. -/
theorem exFloat : FloatExact (fun f n unit => f * unit / 10 ^ n) := by
  intro f n unit hd _ _ _
  exact Nat.mul_div_assoc f hd

/-- `1m2.50s.5ms`: a minute, two and a half seconds, and half a millisecond. -/
theorem exDecimal : DecimalTimes ['1', 'm', '2', '.', '5', '0', 's', '.', '5', 'm', 's'] 62500500000 :=
  .more ['1'] ['m'] ['2', '.', '5', '0', 's', '.', '5', 'm', 's'] 60000000000 60000000000 2500500000 (by decide) (.whole ['1'] 1 (.one 1 (by decide) (by decide)))
    (.more ['2', '.', '5', '0'] ['s'] ['.', '5', 'm', 's'] 2500000000 1000000000 500000 (by decide)
      (.decimal ['2'] ['5', '0'] 2 50 (.one 2 (by decide) (by decide)) (.more ['5'] 5 0 (.one 5 (by decide) (by decide)) (by decide) (by decide)) (by decide))
      (.one ['.', '5'] ['m', 's'] 500000 1000000 (by decide) (.fraction ['5'] 5 (.one 5 (by decide) (by decide)) (by decide))))

example : (gateway (fun f n unit => f * unit / 10 ^ n)
    (exConf "TCP_INACTIVITY_TIMEOUT" ['1', 'm', '2', '.', '5', '0', 's', '.', '5', 'm', 's'])).timeout = 62500500000 :=
  (C137_decimal_partial _ exFloat _ _ (.inl rfl) 62500500000 (by decide)).1 exDecimal

end FcRetrieval.Config
