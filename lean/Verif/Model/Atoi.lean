import Verif.Basic
/-!
# Model of `internal/atoi/atoi.go`

GENERATED by `tools/gen_atoi.py` from `/repo/internal/atoi/atoi.go`: one match arm per Go `case`,
the same sums in the same order over Lean's fixed-width integers (whose arithmetic wraps around as Go's).
`switch len(s)` is a match on the length of the list; `none` is the index-out-of-range panic of `s[0]`
on an empty text.
-/
set_option linter.unusedVariables false
namespace Verif.Model.Atoi

/-- `d` of `U8`: atoi.go:6. -/
def U8.d (c : UInt8) : UInt8 := c - 48

open U8 in
/-- `U8`: atoi.go:5-24. -/
def U8 (s : List UInt8) : UInt8 × Bool :=
  match s with
  | [c0] => -- atoi.go:8-9
      ((d c0), false)
  | [c0, c1] => -- atoi.go:10-11
      ((d c0*10 + d c1), false)
  | [c0, c1, c2] => -- atoi.go:12-21
      if (c0 - 48) > 2 then (0, true) else
      let p : UInt8 := d c1*10 + d c2
      let n : UInt8 := p + d c0*100
      if n ≤ p then (0, true) else
      ((n), false)
  | _ => (0, true) -- atoi.go:23

/-- `d` of `I8`: atoi.go:29. -/
def I8.d (c : UInt8) : Int8 := (c - 48).toInt8

open I8 in
/-- `I8`, branch `s[0] == '-'` (arms list the bytes after the sign): atoi.go:30-41. -/
def I8.neg (s : List UInt8) : Int8 × Bool :=
  let n : Int8 := 0
  match s with
  | [c1] => -- atoi.go:32-33
      ((-d c1), false)
  | [c1, c2] => -- atoi.go:34-35
      ((-(d c1*10 + d c2)), false)
  | [c1, c2, c3] => -- atoi.go:36-40
      let n : Int8 := -(d c1*100 + d c2*10 + d c3)
      if n > 0 then (0, true) else
      ((n), false)
  | _ => (0, true) -- atoi.go:55

open I8 in
/-- `I8`, branch without sign: atoi.go:42-55. -/
def I8.pos (s : List UInt8) : Int8 × Bool :=
  match s with
  | [c0] => -- atoi.go:44-45
      ((d c0), false)
  | [c0, c1] => -- atoi.go:46-47
      ((d c0*10 + d c1), false)
  | [c0, c1, c2] => -- atoi.go:48-52
      let n : Int8 := d c0*100 + d c1*10 + d c2
      if n < 0 then (0, true) else
      ((n), false)
  | _ => (0, true) -- atoi.go:55

/-- `I8`: atoi.go:28-56; `none` is the panic of `s[0]` on an empty text. -/
def I8 (s : List UInt8) : Option (Int8 × Bool) :=
  match s with
  | [] => none
  | c :: cs => if c = 45 then some (I8.neg cs) else some (I8.pos (c :: cs))

/-- `d` of `U16`: atoi.go:61. -/
def U16.d (c : UInt8) : UInt16 := (c - 48).toUInt16

open U16 in
/-- `U16`: atoi.go:60-83. -/
def U16 (s : List UInt8) : UInt16 × Bool :=
  match s with
  | [c0] => -- atoi.go:63-64
      ((d c0), false)
  | [c0, c1] => -- atoi.go:65-66
      ((d c0*10 + d c1), false)
  | [c0, c1, c2] => -- atoi.go:67-68
      ((d c0*100 + d c1*10 + d c2), false)
  | [c0, c1, c2, c3] => -- atoi.go:69-70
      ((d c0*1000 + d c1*100 + d c2*10 + d c3), false)
  | [c0, c1, c2, c3, c4] => -- atoi.go:71-80
      if (c0 - 48) > 6 then (0, true) else
      let p : UInt16 := d c1*1000 + d c2*100 + d c3*10 + d c4
      let n : UInt16 := p + d c0*10000
      if n ≤ p then (0, true) else
      ((n), false)
  | _ => (0, true) -- atoi.go:82

/-- `d` of `I16`: atoi.go:88. -/
def I16.d (c : UInt8) : Int16 := (c - 48).toUInt16.toInt16

open I16 in
/-- `I16`, branch `s[0] == '-'` (arms list the bytes after the sign): atoi.go:89-105. -/
def I16.neg (s : List UInt8) : Int16 × Bool :=
  let n : Int16 := 0
  match s with
  | [c1] => -- atoi.go:91-92
      ((-d c1), false)
  | [c1, c2] => -- atoi.go:93-94
      ((-(n*100 + d c1*10 + d c2)), false)
  | [c1, c2, c3] => -- atoi.go:95-96
      ((-(d c1*100 + d c2*10 + d c3)), false)
  | [c1, c2, c3, c4] => -- atoi.go:97-98
      ((-(d c1*1000 + d c2*100 + d c3*10 + d c4)), false)
  | [c1, c2, c3, c4, c5] => -- atoi.go:99-104
      let n : Int16 := -(d c1*10000 + d c2*1000 + d c3*100 + d c4*10 + d c5)
      if n > 0 then (0, true) else
      ((n), false)
  | _ => (0, true) -- atoi.go:124

open I16 in
/-- `I16`, branch without sign: atoi.go:106-124. -/
def I16.pos (s : List UInt8) : Int16 × Bool :=
  match s with
  | [c0] => -- atoi.go:108-109
      ((d c0), false)
  | [c0, c1] => -- atoi.go:110-111
      ((d c0*10 + d c1), false)
  | [c0, c1, c2] => -- atoi.go:112-113
      ((d c0*100 + d c1*10 + d c2), false)
  | [c0, c1, c2, c3] => -- atoi.go:114-115
      ((d c0*1000 + d c1*100 + d c2*10 + d c3), false)
  | [c0, c1, c2, c3, c4] => -- atoi.go:116-121
      let n : Int16 := d c0*10000 + d c1*1000 + d c2*100 + d c3*10 + d c4
      if n < 0 then (0, true) else
      ((n), false)
  | _ => (0, true) -- atoi.go:124

/-- `I16`: atoi.go:87-125; `none` is the panic of `s[0]` on an empty text. -/
def I16 (s : List UInt8) : Option (Int16 × Bool) :=
  match s with
  | [] => none
  | c :: cs => if c = 45 then some (I16.neg cs) else some (I16.pos (c :: cs))

/-- `d` of `U32`: atoi.go:130. -/
def U32.d (c : UInt8) : UInt32 := (c - 48).toUInt32

open U32 in
/-- `U32`: atoi.go:129-178. -/
def U32 (s : List UInt8) : UInt32 × Bool :=
  match s with
  | [c0] => -- atoi.go:132-133
      ((d c0), false)
  | [c0, c1] => -- atoi.go:134-135
      ((d c0*10 + d c1), false)
  | [c0, c1, c2] => -- atoi.go:136-137
      ((d c0*100 + d c1*10 + d c2), false)
  | [c0, c1, c2, c3] => -- atoi.go:138-139
      ((d c0*1000 + d c1*100 + d c2*10 + d c3), false)
  | [c0, c1, c2, c3, c4] => -- atoi.go:140-141
      ((d c0*10000 + d c1*1000 + d c2*100 + d c3*10 + d c4), false)
  | [c0, c1, c2, c3, c4, c5] => -- atoi.go:142-145
      ((d c0*100000 + d c1*10000 + d c2*1000 + d c3*100 + d c4*10 + d c5), false)
  | [c0, c1, c2, c3, c4, c5, c6] => -- atoi.go:146-150
      ((d c0*1000000 + d c1*100000 + d c2*10000 + d c3*1000 + d c4*100 + d c5*10 + d c6), false)
  | [c0, c1, c2, c3, c4, c5, c6, c7] => -- atoi.go:151-155
      ((d c0*10000000 + d c1*1000000 + d c2*100000 + d c3*10000 + d c4*1000 + d c5*100 +
        d c6*10 + d c7), false)
  | [c0, c1, c2, c3, c4, c5, c6, c7, c8] => -- atoi.go:156-161
      ((d c0*100000000 + d c1*10000000 + d c2*1000000 + d c3*100000 + d c4*10000 +
        d c5*1000 + d c6*100 + d c7*10 + d c8), false)
  | [c0, c1, c2, c3, c4, c5, c6, c7, c8, c9] => -- atoi.go:162-175
      if (c0 - 48) > 4 then (0, true) else
      let p : UInt32 := d c1*100000000 + d c2*10000000 + d c3*1000000 + d c4*100000 + d c5*10000 +
        d c6*1000 + d c7*100 + d c8*10 + d c9
      let n : UInt32 := p + d c0*1000000000
      if n ≤ p then (0, true) else
      ((n), false)
  | _ => (0, true) -- atoi.go:177

/-- `d` of `I32`: atoi.go:183. -/
def I32.d (c : UInt8) : Int32 := (c - 48).toUInt32.toInt32

open I32 in
/-- `I32`, branch `s[0] == '-'` (arms list the bytes after the sign): atoi.go:184-227. -/
def I32.neg (s : List UInt8) : Int32 × Bool :=
  let n : Int32 := 0
  match s with
  | [c1] => -- atoi.go:186-187
      ((-d c1), false)
  | [c1, c2] => -- atoi.go:188-189
      ((-(n*100 + d c1*10 + d c2)), false)
  | [c1, c2, c3] => -- atoi.go:190-191
      ((-(d c1*100 + d c2*10 + d c3)), false)
  | [c1, c2, c3, c4] => -- atoi.go:192-193
      ((-(d c1*1000 + d c2*100 + d c3*10 + d c4)), false)
  | [c1, c2, c3, c4, c5] => -- atoi.go:194-195
      ((-(d c1*10000 + d c2*1000 + d c3*100 + d c4*10 + d c5)), false)
  | [c1, c2, c3, c4, c5, c6] => -- atoi.go:196-199
      ((-(d c1*100000 + d c2*10000 + d c3*1000 + d c4*100 + d c5*10 + d c6)), false)
  | [c1, c2, c3, c4, c5, c6, c7] => -- atoi.go:200-204
      ((-(d c1*1000000 + d c2*100000 + d c3*10000 + d c4*1000 + d c5*100 + d c6*10 + d c7)), false)
  | [c1, c2, c3, c4, c5, c6, c7, c8] => -- atoi.go:205-209
      ((-(d c1*10000000 + d c2*1000000 + d c3*100000 + d c4*10000 + d c5*1000 + d c6*100 +
        d c7*10 + d c8)), false)
  | [c1, c2, c3, c4, c5, c6, c7, c8, c9] => -- atoi.go:210-215
      ((-(d c1*100000000 + d c2*10000000 + d c3*1000000 + d c4*100000 + d c5*10000 +
        d c6*1000 + d c7*100 + d c8*10 + d c9)), false)
  | [c1, c2, c3, c4, c5, c6, c7, c8, c9, c10] => -- atoi.go:216-226
      let n : Int32 := d c1*1000000000 + d c2*100000000 + d c3*10000000 + d c4*1000000 + d c5*100000 +
        d c6*10000 + d c7*1000 + d c8*100 + d c9*10 + d c10
      let n : Int32 := -n
      if n > 0 then (0, true) else
      ((n), false)
  | _ => (0, true) -- atoi.go:272

open I32 in
/-- `I32`, branch without sign: atoi.go:228-272. -/
def I32.pos (s : List UInt8) : Int32 × Bool :=
  match s with
  | [c0] => -- atoi.go:230-231
      ((d c0), false)
  | [c0, c1] => -- atoi.go:232-233
      ((d c0*10 + d c1), false)
  | [c0, c1, c2] => -- atoi.go:234-235
      ((d c0*100 + d c1*10 + d c2), false)
  | [c0, c1, c2, c3] => -- atoi.go:236-237
      ((d c0*1000 + d c1*100 + d c2*10 + d c3), false)
  | [c0, c1, c2, c3, c4] => -- atoi.go:238-239
      ((d c0*10000 + d c1*1000 + d c2*100 + d c3*10 + d c4), false)
  | [c0, c1, c2, c3, c4, c5] => -- atoi.go:240-243
      ((d c0*100000 + d c1*10000 + d c2*1000 + d c3*100 + d c4*10 + d c5), false)
  | [c0, c1, c2, c3, c4, c5, c6] => -- atoi.go:244-248
      ((d c0*1000000 + d c1*100000 + d c2*10000 + d c3*1000 + d c4*100 + d c5*10 + d c6), false)
  | [c0, c1, c2, c3, c4, c5, c6, c7] => -- atoi.go:249-253
      ((d c0*10000000 + d c1*1000000 + d c2*100000 + d c3*10000 + d c4*1000 + d c5*100 +
        d c6*10 + d c7), false)
  | [c0, c1, c2, c3, c4, c5, c6, c7, c8] => -- atoi.go:254-259
      ((d c0*100000000 + d c1*10000000 + d c2*1000000 + d c3*100000 + d c4*10000 +
        d c5*1000 + d c6*100 + d c7*10 + d c8), false)
  | [c0, c1, c2, c3, c4, c5, c6, c7, c8, c9] => -- atoi.go:260-269
      let n : Int32 := d c0*1000000000 + d c1*100000000 + d c2*10000000 + d c3*1000000 + d c4*100000 +
        d c5*10000 + d c6*1000 + d c7*100 + d c8*10 + d c9
      if n < 0 then (0, true) else
      ((n), false)
  | _ => (0, true) -- atoi.go:272

/-- `I32`: atoi.go:182-273; `none` is the panic of `s[0]` on an empty text. -/
def I32 (s : List UInt8) : Option (Int32 × Bool) :=
  match s with
  | [] => none
  | c :: cs => if c = 45 then some (I32.neg cs) else some (I32.pos (c :: cs))

/-- `d` of `U64`: atoi.go:278. -/
def U64.d (c : UInt8) : UInt64 := (c - 48).toUInt64

open U64 in
/-- `U64`: atoi.go:277-419. -/
def U64 (s : List UInt8) : UInt64 × Bool :=
  match s with
  | [c0] => -- atoi.go:280-281
      ((d c0), false)
  | [c0, c1] => -- atoi.go:282-283
      ((d c0*10 + d c1), false)
  | [c0, c1, c2] => -- atoi.go:284-286
      ((d c0*100 + d c1*10 + d c2), false)
  | [c0, c1, c2, c3] => -- atoi.go:287-289
      ((d c0*1000 + d c1*100 + d c2*10 + d c3), false)
  | [c0, c1, c2, c3, c4] => -- atoi.go:290-293
      ((d c0*10000 + d c1*1000 + d c2*100 + d c3*10 + d c4), false)
  | [c0, c1, c2, c3, c4, c5] => -- atoi.go:294-297
      ((d c0*100000 + d c1*10000 + d c2*1000 + d c3*100 + d c4*10 + d c5), false)
  | [c0, c1, c2, c3, c4, c5, c6] => -- atoi.go:298-302
      ((d c0*1000000 + d c1*100000 + d c2*10000 + d c3*1000 + d c4*100 + d c5*10 + d c6), false)
  | [c0, c1, c2, c3, c4, c5, c6, c7] => -- atoi.go:303-307
      ((d c0*10000000 + d c1*1000000 + d c2*100000 + d c3*10000 + d c4*1000 + d c5*100 +
        d c6*10 + d c7), false)
  | [c0, c1, c2, c3, c4, c5, c6, c7, c8] => -- atoi.go:308-313
      ((d c0*100000000 + d c1*10000000 + d c2*1000000 + d c3*100000 + d c4*10000 +
        d c5*1000 + d c6*100 + d c7*10 + d c8), false)
  | [c0, c1, c2, c3, c4, c5, c6, c7, c8, c9] => -- atoi.go:314-319
      ((d c0*1000000000 + d c1*100000000 + d c2*10000000 + d c3*1000000 + d c4*100000 +
        d c5*10000 + d c6*1000 + d c7*100 + d c8*10 + d c9), false)
  | [c0, c1, c2, c3, c4, c5, c6, c7, c8, c9, c10] => -- atoi.go:320-326
      ((d c0*10000000000 + d c1*1000000000 + d c2*100000000 + d c3*10000000 + d c4*1000000 +
        d c5*100000 + d c6*10000 + d c7*1000 + d c8*100 + d c9*10 + d c10), false)
  | [c0, c1, c2, c3, c4, c5, c6, c7, c8, c9, c10, c11] => -- atoi.go:327-333
      ((d c0*100000000000 + d c1*10000000000 + d c2*1000000000 + d c3*100000000 +
        d c4*10000000 + d c5*1000000 + d c6*100000 + d c7*10000 + d c8*1000 + d c9*100 +
        d c10*10 + d c11), false)
  | [c0, c1, c2, c3, c4, c5, c6, c7, c8, c9, c10, c11, c12] => -- atoi.go:334-341
      ((d c0*1000000000000 + d c1*100000000000 + d c2*10000000000 + d c3*1000000000 +
        d c4*100000000 + d c5*10000000 + d c6*1000000 + d c7*100000 + d c8*10000 +
        d c9*1000 + d c10*100 + d c11*10 + d c12), false)
  | [c0, c1, c2, c3, c4, c5, c6, c7, c8, c9, c10, c11, c12, c13] => -- atoi.go:342-349
      ((d c0*10000000000000 + d c1*1000000000000 + d c2*100000000000 + d c3*10000000000 +
        d c4*1000000000 + d c5*100000000 + d c6*10000000 + d c7*1000000 + d c8*100000 +
        d c9*10000 + d c10*1000 + d c11*100 + d c12*10 + d c13), false)
  | [c0, c1, c2, c3, c4, c5, c6, c7, c8, c9, c10, c11, c12, c13, c14] => -- atoi.go:350-358
      ((d c0*100000000000000 + d c1*10000000000000 + d c2*1000000000000 + d c3*100000000000 +
        d c4*10000000000 + d c5*1000000000 + d c6*100000000 + d c7*10000000 + d c8*1000000 +
        d c9*100000 + d c10*10000 + d c11*1000 + d c12*100 + d c13*10 + d c14), false)
  | [c0, c1, c2, c3, c4, c5, c6, c7, c8, c9, c10, c11, c12, c13, c14, c15] => -- atoi.go:359-367
      ((d c0*1000000000000000 + d c1*100000000000000 + d c2*10000000000000 +
        d c3*1000000000000 + d c4*100000000000 + d c5*10000000000 + d c6*1000000000 +
        d c7*100000000 + d c8*10000000 + d c9*1000000 + d c10*100000 + d c11*10000 +
        d c12*1000 + d c13*100 + d c14*10 + d c15), false)
  | [c0, c1, c2, c3, c4, c5, c6, c7, c8, c9, c10, c11, c12, c13, c14, c15, c16] => -- atoi.go:368-377
      ((d c0*10000000000000000 + d c1*1000000000000000 + d c2*100000000000000 +
        d c3*10000000000000 + d c4*1000000000000 + d c5*100000000000 + d c6*10000000000 +
        d c7*1000000000 + d c8*100000000 + d c9*10000000 + d c10*1000000 + d c11*100000 +
        d c12*10000 + d c13*1000 + d c14*100 + d c15*10 + d c16), false)
  | [c0, c1, c2, c3, c4, c5, c6, c7, c8, c9, c10, c11, c12, c13, c14, c15, c16, c17] => -- atoi.go:378-387
      ((d c0*100000000000000000 + d c1*10000000000000000 + d c2*1000000000000000 +
        d c3*100000000000000 + d c4*10000000000000 + d c5*1000000000000 + d c6*100000000000 +
        d c7*10000000000 + d c8*1000000000 + d c9*100000000 + d c10*10000000 +
        d c11*1000000 + d c12*100000 + d c13*10000 + d c14*1000 + d c15*100 + d c16*10 +
        d c17), false)
  | [c0, c1, c2, c3, c4, c5, c6, c7, c8, c9, c10, c11, c12, c13, c14, c15, c16, c17, c18] => -- atoi.go:388-398
      ((d c0*1000000000000000000 + d c1*100000000000000000 + d c2*10000000000000000 +
        d c3*1000000000000000 + d c4*100000000000000 + d c5*10000000000000 +
        d c6*1000000000000 + d c7*100000000000 + d c8*10000000000 + d c9*1000000000 +
        d c10*100000000 + d c11*10000000 + d c12*1000000 + d c13*100000 + d c14*10000 +
        d c15*1000 + d c16*100 + d c17*10 + d c18), false)
  | [c0, c1, c2, c3, c4, c5, c6, c7, c8, c9, c10, c11, c12, c13, c14, c15, c16, c17, c18, c19] => -- atoi.go:399-416
      if c0 ≠ 49 then (0, true) else
      let n : UInt64 := d c1*1000000000000000000 + d c2*100000000000000000 + d c3*10000000000000000 +
        d c4*1000000000000000 + d c5*100000000000000 + d c6*10000000000000 +
        d c7*1000000000000 + d c8*100000000000 + d c9*10000000000 + d c10*1000000000 +
        d c11*100000000 + d c12*10000000 + d c13*1000000 + d c14*100000 + d c15*10000 +
        d c16*1000 + d c17*100 + d c18*10 + d c19
      if n > 8446744073709551615 then (0, true) else
      ((10000000000000000000 + n), false)
  | _ => (0, true) -- atoi.go:418

/-- `d` of `I64`: atoi.go:424. -/
def I64.d (c : UInt8) : Int64 := (c - 48).toUInt64.toInt64

open I64 in
/-- `I64`, branch `s[0] == '-'` (arms list the bytes after the sign): atoi.go:425-546. -/
def I64.neg (s : List UInt8) : Int64 × Bool :=
  let n : Int64 := 0
  match s with
  | [c1] => -- atoi.go:427-428
      ((-d c1), false)
  | [c1, c2] => -- atoi.go:429-430
      ((-(n*100 + d c1*10 + d c2)), false)
  | [c1, c2, c3] => -- atoi.go:431-433
      ((-(d c1*100 + d c2*10 + d c3)), false)
  | [c1, c2, c3, c4] => -- atoi.go:434-436
      ((-(d c1*1000 + d c2*100 + d c3*10 + d c4)), false)
  | [c1, c2, c3, c4, c5] => -- atoi.go:437-440
      ((-(d c1*10000 + d c2*1000 + d c3*100 + d c4*10 + d c5)), false)
  | [c1, c2, c3, c4, c5, c6] => -- atoi.go:441-444
      ((-(d c1*100000 + d c2*10000 + d c3*1000 + d c4*100 + d c5*10 + d c6)), false)
  | [c1, c2, c3, c4, c5, c6, c7] => -- atoi.go:445-449
      ((-(d c1*1000000 + d c2*100000 + d c3*10000 + d c4*1000 + d c5*100 + d c6*10 + d c7)), false)
  | [c1, c2, c3, c4, c5, c6, c7, c8] => -- atoi.go:450-454
      ((-(d c1*10000000 + d c2*1000000 + d c3*100000 + d c4*10000 + d c5*1000 + d c6*100 +
        d c7*10 + d c8)), false)
  | [c1, c2, c3, c4, c5, c6, c7, c8, c9] => -- atoi.go:455-460
      ((-(d c1*100000000 + d c2*10000000 + d c3*1000000 + d c4*100000 + d c5*10000 +
        d c6*1000 + d c7*100 + d c8*10 + d c9)), false)
  | [c1, c2, c3, c4, c5, c6, c7, c8, c9, c10] => -- atoi.go:461-466
      ((-(d c1*1000000000 + d c2*100000000 + d c3*10000000 + d c4*1000000 + d c5*100000 +
        d c6*10000 + d c7*1000 + d c8*100 + d c9*10 + d c10)), false)
  | [c1, c2, c3, c4, c5, c6, c7, c8, c9, c10, c11] => -- atoi.go:467-473
      ((-(d c1*10000000000 + d c2*1000000000 + d c3*100000000 + d c4*10000000 +
        d c5*1000000 + d c6*100000 + d c7*10000 + d c8*1000 + d c9*100 + d c10*10 + d c11)), false)
  | [c1, c2, c3, c4, c5, c6, c7, c8, c9, c10, c11, c12] => -- atoi.go:474-480
      ((-(d c1*100000000000 + d c2*10000000000 + d c3*1000000000 + d c4*100000000 +
        d c5*10000000 + d c6*1000000 + d c7*100000 + d c8*10000 + d c9*1000 + d c10*100 +
        d c11*10 + d c12)), false)
  | [c1, c2, c3, c4, c5, c6, c7, c8, c9, c10, c11, c12, c13] => -- atoi.go:481-488
      ((-(d c1*1000000000000 + d c2*100000000000 + d c3*10000000000 + d c4*1000000000 +
        d c5*100000000 + d c6*10000000 + d c7*1000000 + d c8*100000 + d c9*10000 +
        d c10*1000 + d c11*100 + d c12*10 + d c13)), false)
  | [c1, c2, c3, c4, c5, c6, c7, c8, c9, c10, c11, c12, c13, c14] => -- atoi.go:489-496
      ((-(d c1*10000000000000 + d c2*1000000000000 + d c3*100000000000 + d c4*10000000000 +
        d c5*1000000000 + d c6*100000000 + d c7*10000000 + d c8*1000000 + d c9*100000 +
        d c10*10000 + d c11*1000 + d c12*100 + d c13*10 + d c14)), false)
  | [c1, c2, c3, c4, c5, c6, c7, c8, c9, c10, c11, c12, c13, c14, c15] => -- atoi.go:497-505
      ((-(d c1*100000000000000 + d c2*10000000000000 + d c3*1000000000000 +
        d c4*100000000000 + d c5*10000000000 + d c6*1000000000 + d c7*100000000 +
        d c8*10000000 + d c9*1000000 + d c10*100000 + d c11*10000 + d c12*1000 + d c13*100 +
        d c14*10 + d c15)), false)
  | [c1, c2, c3, c4, c5, c6, c7, c8, c9, c10, c11, c12, c13, c14, c15, c16] => -- atoi.go:506-514
      ((-(d c1*1000000000000000 + d c2*100000000000000 + d c3*10000000000000 +
        d c4*1000000000000 + d c5*100000000000 + d c6*10000000000 + d c7*1000000000 +
        d c8*100000000 + d c9*10000000 + d c10*1000000 + d c11*100000 + d c12*10000 +
        d c13*1000 + d c14*100 + d c15*10 + d c16)), false)
  | [c1, c2, c3, c4, c5, c6, c7, c8, c9, c10, c11, c12, c13, c14, c15, c16, c17] => -- atoi.go:515-524
      ((-(d c1*10000000000000000 + d c2*1000000000000000 + d c3*100000000000000 +
        d c4*10000000000000 + d c5*1000000000000 + d c6*100000000000 + d c7*10000000000 +
        d c8*1000000000 + d c9*100000000 + d c10*10000000 + d c11*1000000 + d c12*100000 +
        d c13*10000 + d c14*1000 + d c15*100 + d c16*10 + d c17)), false)
  | [c1, c2, c3, c4, c5, c6, c7, c8, c9, c10, c11, c12, c13, c14, c15, c16, c17, c18] => -- atoi.go:525-534
      ((-(d c1*100000000000000000 + d c2*10000000000000000 + d c3*1000000000000000 +
        d c4*100000000000000 + d c5*10000000000000 + d c6*1000000000000 + d c7*100000000000 +
        d c8*10000000000 + d c9*1000000000 + d c10*100000000 + d c11*10000000 +
        d c12*1000000 + d c13*100000 + d c14*10000 + d c15*1000 + d c16*100 + d c17*10 +
        d c18)), false)
  | [c1, c2, c3, c4, c5, c6, c7, c8, c9, c10, c11, c12, c13, c14, c15, c16, c17, c18, c19] => -- atoi.go:535-545
      let n : Int64 := d c1*1000000000000000000 + d c2*100000000000000000 + d c3*10000000000000000 +
        d c4*1000000000000000 + d c5*100000000000000 + d c6*10000000000000 +
        d c7*1000000000000 + d c8*100000000000 + d c9*10000000000 + d c10*1000000000 +
        d c11*100000000 + d c12*10000000 + d c13*1000000 + d c14*100000 + d c15*10000 +
        d c16*1000 + d c17*100 + d c18*10 + d c19
      let n : Int64 := -n
      if n > 0 then (0, true) else
      ((n), false)
  | _ => (0, true) -- atoi.go:674

open I64 in
/-- `I64`, branch without sign: atoi.go:547-674. -/
def I64.pos (s : List UInt8) : Int64 × Bool :=
  match s with
  | [c0] => -- atoi.go:549-550
      ((d c0), false)
  | [c0, c1] => -- atoi.go:551-552
      ((d c0*10 + d c1), false)
  | [c0, c1, c2] => -- atoi.go:553-555
      ((d c0*100 + d c1*10 + d c2), false)
  | [c0, c1, c2, c3] => -- atoi.go:556-558
      ((d c0*1000 + d c1*100 + d c2*10 + d c3), false)
  | [c0, c1, c2, c3, c4] => -- atoi.go:559-562
      ((d c0*10000 + d c1*1000 + d c2*100 + d c3*10 + d c4), false)
  | [c0, c1, c2, c3, c4, c5] => -- atoi.go:563-566
      ((d c0*100000 + d c1*10000 + d c2*1000 + d c3*100 + d c4*10 + d c5), false)
  | [c0, c1, c2, c3, c4, c5, c6] => -- atoi.go:567-571
      ((d c0*1000000 + d c1*100000 + d c2*10000 + d c3*1000 + d c4*100 + d c5*10 + d c6), false)
  | [c0, c1, c2, c3, c4, c5, c6, c7] => -- atoi.go:572-576
      ((d c0*10000000 + d c1*1000000 + d c2*100000 + d c3*10000 + d c4*1000 + d c5*100 +
        d c6*10 + d c7), false)
  | [c0, c1, c2, c3, c4, c5, c6, c7, c8] => -- atoi.go:577-582
      ((d c0*100000000 + d c1*10000000 + d c2*1000000 + d c3*100000 + d c4*10000 +
        d c5*1000 + d c6*100 + d c7*10 + d c8), false)
  | [c0, c1, c2, c3, c4, c5, c6, c7, c8, c9] => -- atoi.go:583-588
      ((d c0*1000000000 + d c1*100000000 + d c2*10000000 + d c3*1000000 + d c4*100000 +
        d c5*10000 + d c6*1000 + d c7*100 + d c8*10 + d c9), false)
  | [c0, c1, c2, c3, c4, c5, c6, c7, c8, c9, c10] => -- atoi.go:589-595
      ((d c0*10000000000 + d c1*1000000000 + d c2*100000000 + d c3*10000000 + d c4*1000000 +
        d c5*100000 + d c6*10000 + d c7*1000 + d c8*100 + d c9*10 + d c10), false)
  | [c0, c1, c2, c3, c4, c5, c6, c7, c8, c9, c10, c11] => -- atoi.go:596-602
      ((d c0*100000000000 + d c1*10000000000 + d c2*1000000000 + d c3*100000000 +
        d c4*10000000 + d c5*1000000 + d c6*100000 + d c7*10000 + d c8*1000 + d c9*100 +
        d c10*10 + d c11), false)
  | [c0, c1, c2, c3, c4, c5, c6, c7, c8, c9, c10, c11, c12] => -- atoi.go:603-610
      ((d c0*1000000000000 + d c1*100000000000 + d c2*10000000000 + d c3*1000000000 +
        d c4*100000000 + d c5*10000000 + d c6*1000000 + d c7*100000 + d c8*10000 +
        d c9*1000 + d c10*100 + d c11*10 + d c12), false)
  | [c0, c1, c2, c3, c4, c5, c6, c7, c8, c9, c10, c11, c12, c13] => -- atoi.go:611-618
      ((d c0*10000000000000 + d c1*1000000000000 + d c2*100000000000 + d c3*10000000000 +
        d c4*1000000000 + d c5*100000000 + d c6*10000000 + d c7*1000000 + d c8*100000 +
        d c9*10000 + d c10*1000 + d c11*100 + d c12*10 + d c13), false)
  | [c0, c1, c2, c3, c4, c5, c6, c7, c8, c9, c10, c11, c12, c13, c14] => -- atoi.go:619-627
      ((d c0*100000000000000 + d c1*10000000000000 + d c2*1000000000000 + d c3*100000000000 +
        d c4*10000000000 + d c5*1000000000 + d c6*100000000 + d c7*10000000 + d c8*1000000 +
        d c9*100000 + d c10*10000 + d c11*1000 + d c12*100 + d c13*10 + d c14), false)
  | [c0, c1, c2, c3, c4, c5, c6, c7, c8, c9, c10, c11, c12, c13, c14, c15] => -- atoi.go:628-636
      ((d c0*1000000000000000 + d c1*100000000000000 + d c2*10000000000000 +
        d c3*1000000000000 + d c4*100000000000 + d c5*10000000000 + d c6*1000000000 +
        d c7*100000000 + d c8*10000000 + d c9*1000000 + d c10*100000 + d c11*10000 +
        d c12*1000 + d c13*100 + d c14*10 + d c15), false)
  | [c0, c1, c2, c3, c4, c5, c6, c7, c8, c9, c10, c11, c12, c13, c14, c15, c16] => -- atoi.go:637-646
      ((d c0*10000000000000000 + d c1*1000000000000000 + d c2*100000000000000 +
        d c3*10000000000000 + d c4*1000000000000 + d c5*100000000000 + d c6*10000000000 +
        d c7*1000000000 + d c8*100000000 + d c9*10000000 + d c10*1000000 + d c11*100000 +
        d c12*10000 + d c13*1000 + d c14*100 + d c15*10 + d c16), false)
  | [c0, c1, c2, c3, c4, c5, c6, c7, c8, c9, c10, c11, c12, c13, c14, c15, c16, c17] => -- atoi.go:647-656
      ((d c0*100000000000000000 + d c1*10000000000000000 + d c2*1000000000000000 +
        d c3*100000000000000 + d c4*10000000000000 + d c5*1000000000000 + d c6*100000000000 +
        d c7*10000000000 + d c8*1000000000 + d c9*100000000 + d c10*10000000 +
        d c11*1000000 + d c12*100000 + d c13*10000 + d c14*1000 + d c15*100 + d c16*10 +
        d c17), false)
  | [c0, c1, c2, c3, c4, c5, c6, c7, c8, c9, c10, c11, c12, c13, c14, c15, c16, c17, c18] => -- atoi.go:657-671
      let n : Int64 := d c0*1000000000000000000 + d c1*100000000000000000 + d c2*10000000000000000 +
        d c3*1000000000000000 + d c4*100000000000000 + d c5*10000000000000 +
        d c6*1000000000000 + d c7*100000000000 + d c8*10000000000 + d c9*1000000000 +
        d c10*100000000 + d c11*10000000 + d c12*1000000 + d c13*100000 + d c14*10000 +
        d c15*1000 + d c16*100 + d c17*10 + d c18
      if n < 0 then (0, true) else
      ((n), false)
  | _ => (0, true) -- atoi.go:674

/-- `I64`: atoi.go:423-675; `none` is the panic of `s[0]` on an empty text. -/
def I64 (s : List UInt8) : Option (Int64 × Bool) :=
  match s with
  | [] => none
  | c :: cs => if c = 45 then some (I64.neg cs) else some (I64.pos (c :: cs))

end Verif.Model.Atoi
