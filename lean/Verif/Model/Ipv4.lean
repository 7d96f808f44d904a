import Verif.Model.ParseNumber
/-
# The IPv4 clients of the library: tests/ipv4_test.cpp and benchmarks/bench_ip.cpp

The two parsers (`ipv4_string_to_uint32`, which throws, and `simple_parse_ip_line<fast_float>`, which returns `{false, 0}`) are the same loop; the model
returns `none` for "throws" / `{false, 0}`, and besides the address the unread text, which the program has in `current`.
-/
set_option autoImplicit false
namespace FastFloat
namespace Client

/-- `std::uint8_t` as an argument of `from_chars`. -/
def u8 : IntType := ⟨8, false, true, false, false⟩

/-- The loop `while (value > 0) { *ptr++ = '0' + value % 10; value /= 10; }` (ipv4_test.cpp:14-17): the characters in the order in which they are written. -/
def u8DigitsLoop (value : Nat) : List Nat :=
  if _h : value > 0 then (48 + value % 10) :: u8DigitsLoop (value / 10) else []
termination_by value
decreasing_by omega

/-- `uint8_to_chars_manual` (ipv4_test.cpp:8-21): the characters written. -/
def u8ToChars (value : Nat) : List Nat := if value = 0 then [48] else (u8DigitsLoop value).reverse

/-- `octets` (ipv4_test.cpp:24-26): `static_cast<uint8_t>` keeps the low eight bits. -/
def octets (ip : Nat) : List Nat := [ip / 2 ^ 24 % 256, ip / 2 ^ 16 % 256, ip / 2 ^ 8 % 256, ip % 256]

/-- The loop of `uint32_to_ipv4_string` (ipv4_test.cpp:30-36): a dot after every octet but the last. -/
def printLoop : List Nat → List Nat
  | [] => []
  | [o] => u8ToChars o
  | o :: os => u8ToChars o ++ 46 :: printLoop os

/-- `uint32_to_ipv4_string` (ipv4_test.cpp:23-38): the bytes written to `buffer`, with the terminating zero. -/
def ipv4Buffer (ip : Nat) : List Nat := printLoop (octets ip) ++ [0]

/-- The loop of `ipv4_string_to_uint32` (ipv4_test.cpp:45-60) and `simple_parse_ip_line` (bench_ip.cpp:63-86) with `n = 4 - i` octets to go.
A success that stores nothing would read an indeterminate `value`: `nullDeref`.  `ip << 8` is a 32-bit shift. -/
def parseIpLoop (c : Cfg) (ct : CharType) : Nat → List Nat → Nat → Exec (Option (Nat × List Nat))
  | 0, current, ip => .ok (some (ip, current))
  | n + 1, current, ip => do
    let r ← fromCharsInt c ct u8 current 10
    if r.ec ≠ .ok then pure none
    else
      match r.value with
      | none => .error .nullDeref
      | some v =>
        let ip := ip * 2 ^ 8 % 2 ^ 32 ||| v.toNat
        if n ≥ 1 then
          match current.drop r.off with
          | [] => pure none
          | ch :: current => if ch ≠ 46 then pure none else parseIpLoop c ct n current ip
        else parseIpLoop c ct n (current.drop r.off) ip

/-- `ipv4_string_to_uint32` (ipv4_test.cpp:40-62), `simple_parse_ip_line` (bench_ip.cpp:58-88). -/
def parseIp (c : Cfg) (ct : CharType) (s : List Nat) : Exec (Option (Nat × List Nat)) := parseIpLoop c ct 4 s 0

/-- First loop of `seek_ip_end` (bench_ip.cpp:34-44): to just after the third dot, or to the end. -/
def seekDots : List Nat → Nat → List Nat
  | [], _ => []
  | ch :: p, count =>
    if ch = 46 then if count + 1 = 3 then p else seekDots p (count + 1)
    else seekDots p count

/-- Second loop of `seek_ip_end` (bench_ip.cpp:45-51). -/
def seekDigits : List Nat → List Nat
  | [] => []
  | ch :: p => if ch ≤ 57 ∧ ch ≥ 48 then seekDigits p else ch :: p

/-- `seek_ip_end` (bench_ip.cpp:31-53): the text from the pointer it returns. -/
def seekIpEnd (s : List Nat) : List Nat := seekDigits (seekDots s 0)

end Client
end FastFloat
