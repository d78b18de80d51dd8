import Verif.Model.Go
/-!
# Model of `gateway/config/config.go` and `provider/config/config.go`

The texts come from the environment (viper); an unset variable is the empty text.  Texts are lists of characters: a variable with bytes that are not
UTF-8 is outside the model.
-/

namespace FcRetrieval.Config

/-! ## `fmt.Sscan` into a `*big.Int` -/

/-- fmt `isSpace`. -/
def isSpace (c : Char) : Bool :=
  (9 ≤ c.toNat && c.toNat ≤ 13) || c.toNat == 0x20 || c.toNat == 0x85 || c.toNat == 0xa0 || c.toNat == 0x1680 ||
    (0x2000 ≤ c.toNat && c.toNat ≤ 0x200a) || c.toNat == 0x2028 || c.toNat == 0x2029 || c.toNat == 0x202f || c.toNat == 0x205f || c.toNat == 0x3000

/-- The value of a character as a digit, 63 if it is none (math/big `nat.scan`). -/
def digit (c : Char) : Nat :=
  if 48 ≤ c.toNat ∧ c.toNat ≤ 57 then c.toNat - 48
  else if 97 ≤ c.toNat ∧ c.toNat ≤ 122 then c.toNat - 87
  else if 65 ≤ c.toNat ∧ c.toNat ≤ 90 then c.toNat - 55
  else 63

/-- What `nat.scan` remembers of the previous character. -/
inductive Prev where
  | other
  | digit
  | sep
  deriving DecidableEq

/-- The loop of math/big `nat.scan` for base argument 0: value, number of digits, previous character and whether a separator was misplaced; `none` if a
character outside ASCII is read (an error of `byteReader`). -/
def scanDigits (b : Nat) : List Char → Prev → Bool → Nat → Nat → Option (Nat × Nat × Prev × Bool)
  | [], prev, bad, count, v => some (v, count, prev, bad)
  | c :: cs, prev, bad, count, v =>
    if 128 ≤ c.toNat then none
    else if c = '_' then scanDigits b cs .sep (bad || decide (prev ≠ .digit)) count v
    else if b ≤ digit c then some (v, count, prev, bad)
    else scanDigits b cs .digit bad (count + 1) (v * b + digit c)

/-- The end of math/big `nat.scan`; `octal`: the base was told from a leading zero alone. -/
def scanned (octal : Bool) : Option (Nat × Nat × Prev × Bool) → Option Nat
  | none => none
  | some (v, count, prev, bad) =>
    if bad || decide (prev = .sep) then none
    else if count = 0 then (if octal then some 0 else none)
    else some v

/-- math/big `nat.scan` for base argument 0. -/
def scanNat : List Char → Option Nat
  | [] => none
  | [c] => scanned false (scanDigits 10 [c] .other false 0 0)
  | c :: d :: cs =>
    if c = '0' then
      if 128 ≤ d.toNat then none
      else if d = 'b' ∨ d = 'B' then scanned false (scanDigits 2 cs .digit false 0 0)
      else if d = 'o' ∨ d = 'O' then scanned false (scanDigits 8 cs .digit false 0 0)
      else if d = 'x' ∨ d = 'X' then scanned false (scanDigits 16 cs .digit false 0 0)
      else scanned true (scanDigits 8 (d :: cs) .digit false 0 0)
    else scanned false (scanDigits 10 (c :: d :: cs) .other false 0 0)

/-- math/big `Int.scan`: a sign and a number. -/
def scanInt : List Char → Option Int
  | [] => none
  | c :: cs =>
    if c = '-' then (scanNat cs).map (fun n => -(n : Int))
    else if c = '+' then (scanNat cs).map (fun n => (n : Int))
    else (scanNat (c :: cs)).map (fun n => (n : Int))

/-- `fmt.Sscan(s, z)` for a `*big.Int`: math/big `Int.Scan` with the verb `v`; what follows the number is left unread. -/
def sscan (s : List Char) : Option Int := scanInt (s.dropWhile isSpace)

/-- gateway/config/config.go:44-63 (and provider/config/config.go:53-72): the number, or the default if there is an error. -/
def amount (default : Int) (s : List Char) : Int := (sscan s).getD default

/-! ## `time.ParseDuration` -/

def isDigit (c : Char) : Bool := 48 ≤ c.toNat && c.toNat ≤ 57

/-- time `leadingInt`: the number at the front and what follows; `none` on overflow. -/
def leadingInt : List Char → Nat → Option (Nat × List Char)
  | [], x => some (x, [])
  | c :: cs, x =>
    if isDigit c then
      if (2 ^ 63 - 1) / 10 < x then none
      else if 2 ^ 63 ≤ x * 10 + (c.toNat - 48) then none
      else leadingInt cs (x * 10 + (c.toNat - 48))
    else some (x, c :: cs)

/-- time `leadingFraction`: the digits that fit, how many, and what follows. -/
def leadingFraction : List Char → Nat → Nat → Bool → Nat × Nat × List Char
  | [], x, n, _ => (x, n, [])
  | c :: cs, x, n, full =>
    if isDigit c then
      if full = true ∨ (2 ^ 63 - 1) / 10 < x ∨ 2 ^ 63 ≤ x * 10 + (c.toNat - 48) then leadingFraction cs x n true
      else leadingFraction cs (x * 10 + (c.toNat - 48)) (n + 1) false
    else (x, n, c :: cs)

/-- time `unitMap`, in nanoseconds. -/
def unitOf (u : List Char) : Option Nat :=
  if u = ['n', 's'] then some 1
  else if u = ['u', 's'] ∨ u = ['µ', 's'] ∨ u = ['μ', 's'] then some 1000
  else if u = ['m', 's'] then some 1000000
  else if u = ['s'] then some 1000000000
  else if u = ['m'] then some 60000000000
  else if u = ['h'] then some 3600000000000
  else none

/-- The loop of `time.ParseDuration`, one number with its unit at a time.  `frac f n unit` is `int64(float64(f) * (float64(unit) / 10^n))`, which is not modelled. -/
def durations (frac : Nat → Nat → Nat → Nat) : Nat → List Char → Nat → Option Nat
  | _, [], d => some d
  | 0, _ :: _, _ => none
  | fuel + 1, c :: cs, d =>
    if ¬ (c = '.' ∨ isDigit c = true) then none
    else
      match leadingInt (c :: cs) 0 with
      | none => none
      | some (v, s) =>
        let pre := isDigit c
        let (f, n, post, s) :=
          match s with
          | [] => (0, 0, false, [])
          | e :: es =>
            if e = '.' then
              let (f, n, s') := leadingFraction es 0 0 false
              (f, n, decide (s' ≠ es), s')
            else (0, 0, false, e :: es)
        if pre = false ∧ post = false then none
        else
          let u := s.takeWhile (fun c => !(c = '.' || isDigit c))
          let s := s.dropWhile (fun c => !(c = '.' || isDigit c))
          if u = [] then none
          else
            match unitOf u with
            | none => none
            | some unit =>
              if (2 ^ 63 - 1) / unit < v then none
              else
                let v := v * unit + (if 0 < f then frac f n unit else 0)
                if 2 ^ 63 ≤ v then none
                else if 2 ^ 63 ≤ d + v then none
                else durations frac fuel s (d + v)

/-- `time.ParseDuration`, in nanoseconds. -/
def parseDuration (frac : Nat → Nat → Nat → Nat) (s : List Char) : Option Int :=
  let neg := s.head? = some '-'
  let s := if s.head? = some '-' ∨ s.head? = some '+' then s.drop 1 else s
  if s = ['0'] then some 0
  else if s = [] then none
  else (durations frac s.length s 0).map (fun d => if neg then -(d : Int) else (d : Int))

/-- gateway/config/config.go:31-42 (and provider/config/config.go:40-51): the duration, or the default if there is an error. -/
def duration (frac : Nat → Nat → Nat → Nat) (default : Int) (s : List Char) : Int := (parseDuration frac s).getD default

/-! ## `strconv.ParseUint(s, 10, 8)` -/

/-- The loop of `ParseUint` for base 10 and 8 bits: digits only, at most 255. -/
def uint8Digits : List Char → Nat → Option Nat
  | [], n => some n
  | c :: cs, n =>
    if isDigit c then
      if 255 < n * 10 + (c.toNat - 48) then none else uint8Digits cs (n * 10 + (c.toNat - 48))
    else none

/-- provider/config/config.go:31-37 `parseUint8`: panics if there is an error. -/
def parseUint8 (s : List Char) : Res Nat :=
  if s = [] then .panic
  else
    match uint8Digits s 0 with
    | some n => .ok n
    | none => .panic

/-! ## `Map` -/

/-- What a node is run with.  Not here: the settings for logging, and those that nothing reads (the identifier, address, region and keys of the node, and the
`IP:port` pairs made for the register, which the admin sends there instead). -/
structure Settings where
  restAPI : String
  /-- Gateways only. -/
  providerAPI : String
  gatewayAPI : String
  adminAPI : String
  registerURL : String
  refresh : Int
  timeout : Int
  longTimeout : Int
  searchPrice : Int
  offerPrice : Int
  topup : Int
  deriving DecidableEq

/-- What both programs have in common: gateway/config/config.go:31-100 and provider/config/config.go:40-109. -/
def read (frac : Nat → Nat → Nat → Nat) (conf : String → List Char) : Settings where
  restAPI := String.ofList (conf "BIND_REST_API")
  providerAPI := String.ofList (conf "BIND_PROVIDER_API")
  gatewayAPI := String.ofList (conf "BIND_GATEWAY_API")
  adminAPI := String.ofList (conf "BIND_ADMIN_API")
  registerURL := String.ofList (conf "REGISTER_API_URL")
  refresh := duration frac 5000000000 (conf "REGISTER_REFRESH_DURATION")
  timeout := duration frac 100000000 (conf "TCP_INACTIVITY_TIMEOUT")
  longTimeout := duration frac 5000000000 (conf "TCP_LONG_INACTIVITY_TIMEOUT")
  searchPrice := amount 1000000000000000 (conf "SEARCH_PRICE")
  offerPrice := amount 1000000000000000 (conf "OFFER_PRICE")
  topup := amount 100000000000000000 (conf "TOPUP_AMOUNT")

/-- gateway/config/config.go:30-100 `Map`. -/
def gateway (frac : Nat → Nat → Nat → Nat) (conf : String → List Char) : Settings := read frac conf

/-- provider/config/config.go:39-109 `Map`: the same without an address for providers; a bad signature algorithm stops the program. -/
def provider (frac : Nat → Nat → Nat → Nat) (conf : String → List Char) : Res Settings :=
  match parseUint8 (conf "PROVIDER_SIG_ALG") with
  | .ok _ => .ok { read frac conf with providerAPI := "" }
  | .err => .err
  | .panic => .panic

end FcRetrieval.Config
