import Verif.Conform.Types
/-!
# Tests of the repository, run in the model (generated by tools/conformance)

The number in front of each test is its line in jscandec_test.go.
-/
namespace Verif.Conform
open Verif.Model Verif.Spec

/- TestDecodeUint, jscandec_test.go:336 -/
example : session 2 ⟨false, false, false⟩ [
    /- 337 -/ ⟨b!"null", zeros 8, .ok (.i (0))⟩,
    /- 338 -/ ⟨b!"0", zeros 8, .ok (.i (0))⟩,
    /- 339 -/ ⟨b!"1", zeros 8, .ok (.i (1))⟩,
    /- 340 -/ ⟨b!"2147483647", zeros 8, .ok (.i (2147483647))⟩,
    /- 341 -/ ⟨b!"18446744073709551615", zeros 8, .ok (.i (18446744073709551615))⟩,
    /- 343 -/ ⟨b!"18446744073709551616", zeros 8, .err 0 (.integerOverflow)⟩,
    /- 344 -/ ⟨b!"111111111111111111111", zeros 8, .err 0 (.integerOverflow)⟩,
    /- 346 -/ ⟨b!"-1", zeros 8, .err 0 (.unexpectedValue)⟩,
    /- 347 -/ ⟨b!"\"text\"", zeros 8, .err 0 (.unexpectedValue)⟩,
    /- 348 -/ ⟨b!"true", zeros 8, .err 0 (.unexpectedValue)⟩,
    /- 349 -/ ⟨b!"false", zeros 8, .err 0 (.unexpectedValue)⟩,
    /- 350 -/ ⟨b!"-1", zeros 8, .err 0 (.unexpectedValue)⟩,
    /- 351 -/ ⟨b!"0.1", zeros 8, .err 0 (.unexpectedValue)⟩,
    /- 352 -/ ⟨b!"1e2", zeros 8, .err 0 (.unexpectedValue)⟩,
    /- 353 -/ ⟨b!"[]", zeros 8, .err 0 (.unexpectedValue)⟩] = true := by decide +kernel

/- TestDecodeUint64, jscandec_test.go:446 -/
example : session 6 ⟨false, false, false⟩ [
    /- 447 -/ ⟨b!"null", zeros 8, .ok (.i (0))⟩,
    /- 448 -/ ⟨b!"0", zeros 8, .ok (.i (0))⟩,
    /- 449 -/ ⟨b!"1", zeros 8, .ok (.i (1))⟩,
    /- 450 -/ ⟨b!"2147483647", zeros 8, .ok (.i (2147483647))⟩,
    /- 451 -/ ⟨b!"4294967295", zeros 8, .ok (.i (4294967295))⟩,
    /- 452 -/ ⟨b!"18446744073709551615", zeros 8, .ok (.i (18446744073709551615))⟩,
    /- 454 -/ ⟨b!"18446744073709551616", zeros 8, .err 0 (.integerOverflow)⟩,
    /- 455 -/ ⟨b!"19000000000000000000", zeros 8, .err 0 (.integerOverflow)⟩,
    /- 456 -/ ⟨b!"111111111111111111111", zeros 8, .err 0 (.integerOverflow)⟩,
    /- 458 -/ ⟨b!"-1", zeros 8, .err 0 (.unexpectedValue)⟩,
    /- 459 -/ ⟨b!"\"text\"", zeros 8, .err 0 (.unexpectedValue)⟩,
    /- 460 -/ ⟨b!"true", zeros 8, .err 0 (.unexpectedValue)⟩,
    /- 461 -/ ⟨b!"false", zeros 8, .err 0 (.unexpectedValue)⟩,
    /- 462 -/ ⟨b!"[]", zeros 8, .err 0 (.unexpectedValue)⟩] = true := by decide +kernel

/- TestDecodeUint8, jscandec_test.go:559 -/
example : session 12 ⟨false, false, false⟩ [
    /- 560 -/ ⟨b!"null", zeros 1, .ok (.i (0))⟩,
    /- 561 -/ ⟨b!"0", zeros 1, .ok (.i (0))⟩,
    /- 562 -/ ⟨b!"1", zeros 1, .ok (.i (1))⟩,
    /- 563 -/ ⟨b!"255", zeros 1, .ok (.i (255))⟩,
    /- 565 -/ ⟨b!"256", zeros 1, .err 0 (.integerOverflow)⟩,
    /- 566 -/ ⟨b!"300", zeros 1, .err 0 (.integerOverflow)⟩,
    /- 567 -/ ⟨b!"1111", zeros 1, .err 0 (.integerOverflow)⟩,
    /- 569 -/ ⟨b!"-1", zeros 1, .err 0 (.unexpectedValue)⟩,
    /- 570 -/ ⟨b!"\"text\"", zeros 1, .err 0 (.unexpectedValue)⟩,
    /- 571 -/ ⟨b!"true", zeros 1, .err 0 (.unexpectedValue)⟩,
    /- 572 -/ ⟨b!"false", zeros 1, .err 0 (.unexpectedValue)⟩,
    /- 573 -/ ⟨b!"[]", zeros 1, .err 0 (.unexpectedValue)⟩] = true := by decide +kernel

/- TestDecodeInt8, jscandec_test.go:577 -/
example : session 13 ⟨false, false, false⟩ [
    /- 578 -/ ⟨b!"null", zeros 1, .ok (.i (0))⟩,
    /- 579 -/ ⟨b!"0", zeros 1, .ok (.i (0))⟩,
    /- 580 -/ ⟨b!"1", zeros 1, .ok (.i (1))⟩,
    /- 581 -/ ⟨b!"-1", zeros 1, .ok (.i (-1))⟩,
    /- 582 -/ ⟨b!"-128", zeros 1, .ok (.i (-128))⟩,
    /- 583 -/ ⟨b!"127", zeros 1, .ok (.i (127))⟩,
    /- 585 -/ ⟨b!"128", zeros 1, .err 0 (.integerOverflow)⟩,
    /- 586 -/ ⟨b!"-129", zeros 1, .err 0 (.integerOverflow)⟩,
    /- 588 -/ ⟨b!"\"text\"", zeros 1, .err 0 (.unexpectedValue)⟩,
    /- 589 -/ ⟨b!"true", zeros 1, .err 0 (.unexpectedValue)⟩,
    /- 590 -/ ⟨b!"false", zeros 1, .err 0 (.unexpectedValue)⟩,
    /- 591 -/ ⟨b!"[]", zeros 1, .err 0 (.unexpectedValue)⟩] = true := by decide +kernel

/- TestDecodeNull, jscandec_test.go:601 -/
example : session 9 ⟨false, false, false⟩ [
    /- 601 -/ ⟨b!"null", zeros 4, .ok (.i (0))⟩] = true := by decide +kernel

/- TestDecodeNull, jscandec_test.go:607 -/
example : session 6 ⟨false, false, false⟩ [
    /- 607 -/ ⟨b!"null", zeros 8, .ok (.i (0))⟩] = true := by decide +kernel

/- TestDecodeNull, jscandec_test.go:626 -/
example : session 19 ⟨false, false, false⟩ [
    /- 626 -/ ⟨b!"[null]", zeros 24, .ok (.l [.i (0)])⟩] = true := by decide +kernel

/- TestDecodeNull, jscandec_test.go:636 -/
example : session 24 ⟨false, false, false⟩ [
    /- 636 -/ ⟨b!"[null]", zeros 24, .ok (.l [.i (0)])⟩] = true := by decide +kernel

/- TestDecodeSliceUint, jscandec_test.go:881 -/
example : session 22 ⟨false, false, false⟩ [
    /- 882 -/ ⟨b!"[ 1, 23, 456 ]", zeros 24, .ok (.l [.i (1), .i (23), .i (456)])⟩,
    /- 883 -/ ⟨b!"[18446744073709551615]", zeros 24, .ok (.l [.i (18446744073709551615)])⟩,
    /- 884 -/ ⟨b!"[ 1 ]", zeros 24, .ok (.l [.i (1)])⟩,
    /- 885 -/ ⟨b!"[]", zeros 24, .ok (.l [])⟩,
    /- 886 -/ ⟨b!"null", zeros 24, .ok (.nil)⟩,
    /- 887 -/ ⟨b!"[ null ]", zeros 24, .ok (.l [.i (0)])⟩,
    /- 888 -/ ⟨b!"[ null, 1, null ]", zeros 24, .ok (.l [.i (0), .i (1), .i (0)])⟩,
    /- 890 -/ ⟨b!"[1,2,3]", seg 24 (.slice 3 3 (seg 8 (.int (10)) ++ seg 8 (.int (20)) ++ seg 8 (.int (30)))), .ok (.l [.i (1), .i (2), .i (3)])⟩,
    /- 894 -/ ⟨b!"[1,2,3]", zeros 24, .ok (.l [.i (1), .i (2), .i (3)])⟩,
    /- 898 -/ ⟨b!"[1,2,3]", seg 24 (.slice 2 2 (seg 8 (.int (10)) ++ seg 8 (.int (20)))), .ok (.l [.i (1), .i (2), .i (3)])⟩,
    /- 902 -/ ⟨b!"[1,2,3]", seg 24 (.slice 4 4 (seg 8 (.int (10)) ++ seg 8 (.int (20)) ++ seg 8 (.int (30)) ++ seg 8 (.int (40)))), .ok (.l [.i (1), .i (2), .i (3)])⟩,
    /- 907 -/ ⟨b!"[-1]", zeros 24, .err 1 (.unexpectedValue)⟩,
    /- 909 -/ ⟨b!"[18446744073709551616]", zeros 24, .err 1 (.integerOverflow)⟩,
    /- 911 -/ ⟨b!"{}", zeros 24, .err 0 (.unexpectedValue)⟩,
    /- 913 -/ ⟨b!"[1,3.14]", zeros 24, .err 3 (.unexpectedValue)⟩,
    /- 915 -/ ⟨b!"[1,\"nope\"]", zeros 24, .err 3 (.unexpectedValue)⟩] = true := by decide +kernel

/- TestDecodeSliceUint16, jscandec_test.go:965 -/
example : session 24 ⟨false, false, false⟩ [
    /- 966 -/ ⟨b!"[ 1, 23, 123 ]", zeros 24, .ok (.l [.i (1), .i (23), .i (123)])⟩,
    /- 967 -/ ⟨b!"[65535]", zeros 24, .ok (.l [.i (65535)])⟩,
    /- 968 -/ ⟨b!"[ 1 ]", zeros 24, .ok (.l [.i (1)])⟩,
    /- 969 -/ ⟨b!"[]", zeros 24, .ok (.l [])⟩,
    /- 970 -/ ⟨b!"null", zeros 24, .ok (.nil)⟩,
    /- 971 -/ ⟨b!"[ null ]", zeros 24, .ok (.l [.i (0)])⟩,
    /- 972 -/ ⟨b!"[ null, 1, null ]", zeros 24, .ok (.l [.i (0), .i (1), .i (0)])⟩,
    /- 974 -/ ⟨b!"[1,2,3]", seg 24 (.slice 3 3 (seg 2 (.int (10)) ++ seg 2 (.int (20)) ++ seg 2 (.int (30)))), .ok (.l [.i (1), .i (2), .i (3)])⟩,
    /- 978 -/ ⟨b!"[1,2,3]", zeros 24, .ok (.l [.i (1), .i (2), .i (3)])⟩,
    /- 982 -/ ⟨b!"[1,2,3]", seg 24 (.slice 2 2 (seg 2 (.int (10)) ++ seg 2 (.int (20)))), .ok (.l [.i (1), .i (2), .i (3)])⟩,
    /- 986 -/ ⟨b!"[1,2,3]", seg 24 (.slice 4 4 (seg 2 (.int (10)) ++ seg 2 (.int (20)) ++ seg 2 (.int (30)) ++ seg 2 (.int (40)))), .ok (.l [.i (1), .i (2), .i (3)])⟩,
    /- 991 -/ ⟨b!"[-1]", zeros 24, .err 1 (.unexpectedValue)⟩,
    /- 993 -/ ⟨b!"[65536]", zeros 24, .err 1 (.integerOverflow)⟩,
    /- 995 -/ ⟨b!"{}", zeros 24, .err 0 (.unexpectedValue)⟩,
    /- 997 -/ ⟨b!"[1,3.14]", zeros 24, .err 3 (.unexpectedValue)⟩,
    /- 999 -/ ⟨b!"[1,\"nope\"]", zeros 24, .err 3 (.unexpectedValue)⟩] = true := by decide +kernel

/- TestDecodeSliceBool, jscandec_test.go:1133 -/
example : session 15 ⟨false, false, false⟩ [
    /- 1134 -/ ⟨b!"[ true, false, true ]", zeros 24, .ok (.l [.b true, .b false, .b true])⟩,
    /- 1135 -/ ⟨b!"[ true ]", zeros 24, .ok (.l [.b true])⟩,
    /- 1136 -/ ⟨b!"[]", zeros 24, .ok (.l [])⟩,
    /- 1137 -/ ⟨b!"null", zeros 24, .ok (.nil)⟩,
    /- 1138 -/ ⟨b!"[null]", zeros 24, .ok (.l [.b false])⟩,
    /- 1139 -/ ⟨b!"[null,true,null]", zeros 24, .ok (.l [.b false, .b true, .b false])⟩,
    /- 1141 -/ ⟨b!"[true,false,true]", seg 24 (.slice 3 3 (zeros 1 ++ seg 1 (.bool true) ++ zeros 1)), .ok (.l [.b true, .b false, .b true])⟩,
    /- 1145 -/ ⟨b!"[true, false, true]", zeros 24, .ok (.l [.b true, .b false, .b true])⟩,
    /- 1149 -/ ⟨b!"[true, false, true]", seg 24 (.slice 2 2 (zeros 1 ++ zeros 1)), .ok (.l [.b true, .b false, .b true])⟩,
    /- 1153 -/ ⟨b!"[true, false, true]", seg 24 (.slice 4 4 (zeros 1 ++ seg 1 (.bool true) ++ seg 1 (.bool true) ++ seg 1 (.bool true))), .ok (.l [.b true, .b false, .b true])⟩,
    /- 1158 -/ ⟨b!"\"text\"", zeros 24, .err 0 (.unexpectedValue)⟩,
    /- 1160 -/ ⟨b!"true", zeros 24, .err 0 (.unexpectedValue)⟩,
    /- 1162 -/ ⟨b!"false", zeros 24, .err 0 (.unexpectedValue)⟩,
    /- 1164 -/ ⟨b!"{}", zeros 24, .err 0 (.unexpectedValue)⟩,
    /- 1166 -/ ⟨b!"[true,[]]", zeros 24, .err 6 (.unexpectedValue)⟩,
    /- 1168 -/ ⟨b!"[true,3.14]", zeros 24, .err 6 (.unexpectedValue)⟩] = true := by decide +kernel

/- TestDecodeStringTagBool, jscandec_test.go:2266 -/
example : session 58 ⟨false, false, false⟩ [
    /- 2267 -/ ⟨b!"{\"bool\":null}", zeros 1, .ok (.l [.b false])⟩,
    /- 2268 -/ ⟨b!"{\"bool\":\"false\"}", zeros 1, .ok (.l [.b false])⟩,
    /- 2269 -/ ⟨b!"{\"bool\":\"true\"}", zeros 1, .ok (.l [.b true])⟩,
    /- 2271 -/ ⟨b!"{}", zeros 1, .ok (.l [.b false])⟩,
    /- 2272 -/ ⟨b!"null", zeros 1, .ok (.l [.b false])⟩,
    /- 2274 -/ ⟨b!"{\"bool\":\"\"}", zeros 1, .err 8 (.unexpectedValue)⟩,
    /- 2276 -/ ⟨b!"{\"bool\":\"text\"}", zeros 1, .err 8 (.unexpectedValue)⟩,
    /- 2278 -/ ⟨b!"{\"bool\":\"1\"}", zeros 1, .err 8 (.unexpectedValue)⟩,
    /- 2280 -/ ⟨b!"{\"bool\":\"0\"}", zeros 1, .err 8 (.unexpectedValue)⟩,
    /- 2282 -/ ⟨b!"{\"bool\":\" true\"}", zeros 1, .err 8 (.unexpectedValue)⟩,
    /- 2284 -/ ⟨b!"{\"bool\":\"true \"}", zeros 1, .err 8 (.unexpectedValue)⟩,
    /- 2286 -/ ⟨b!"{\"bool\":\"true true\"}", zeros 1, .err 8 (.unexpectedValue)⟩,
    /- 2288 -/ ⟨b!"{\"bool\":\"true\\n\"}", zeros 1, .err 8 (.unexpectedValue)⟩,
    /- 2290 -/ ⟨b!"{\"bool\":\"trueabc\"}", zeros 1, .err 8 (.unexpectedValue)⟩,
    /- 2292 -/ ⟨b!"{\"bool\":\"truefalse\"}", zeros 1, .err 8 (.unexpectedValue)⟩,
    /- 2295 -/ ⟨b!"1", zeros 1, .err 0 (.unexpectedValue)⟩,
    /- 2296 -/ ⟨b!"[]", zeros 1, .err 0 (.unexpectedValue)⟩,
    /- 2297 -/ ⟨b!"\"text\"", zeros 1, .err 0 (.unexpectedValue)⟩] = true := by decide +kernel

/- TestDecodeStringTagUint16, jscandec_test.go:2469 -/
example : session 67 ⟨false, false, false⟩ [
    /- 2470 -/ ⟨b!"{}", zeros 2, .ok (.l [.i (0)])⟩,
    /- 2471 -/ ⟨b!"null", zeros 2, .ok (.l [.i (0)])⟩,
    /- 2472 -/ ⟨b!"{\"uint16\":\"0\"}", zeros 2, .ok (.l [.i (0)])⟩,
    /- 2473 -/ ⟨b!"{\"uint16\":\"65535\"}", zeros 2, .ok (.l [.i (65535)])⟩,
    /- 2475 -/ ⟨b!"{\"uint16\":\"65536\"}", zeros 2, .err 10 (.unexpectedValue)⟩,
    /- 2476 -/ ⟨b!"{\"uint16\":\"-1\"}", zeros 2, .err 10 (.unexpectedValue)⟩,
    /- 2477 -/ ⟨b!"{\"uint16\":\"3.14\"}", zeros 2, .err 10 (.unexpectedValue)⟩,
    /- 2478 -/ ⟨b!"{\"uint16\":\"3e2\"}", zeros 2, .err 10 (.unexpectedValue)⟩] = true := by decide +kernel

/- TestDecodePointerFloat64, jscandec_test.go:2614 -/
example : session 74 ⟨false, false, false⟩ [
    /- 2615 -/ ⟨b!"42", zeros 8, .ok (.p (.f 4631107791820423168))⟩,
    /- 2616 -/ ⟨b!"3.1415", zeros 8, .ok (.p (.f 4614256447914709615))⟩,
    /- 2617 -/ ⟨b!"null", zeros 8, .ok (.nil)⟩,
    /- 2619 -/ ⟨b!"[]", zeros 8, .err 0 (.unexpectedValue)⟩,
    /- 2620 -/ ⟨b!"{}", zeros 8, .err 0 (.unexpectedValue)⟩,
    /- 2621 -/ ⟨b!"\"text\"", zeros 8, .err 0 (.unexpectedValue)⟩,
    /- 2622 -/ ⟨b!"false", zeros 8, .err 0 (.unexpectedValue)⟩,
    /- 2623 -/ ⟨b!"true", zeros 8, .err 0 (.unexpectedValue)⟩] = true := by decide +kernel

/- TestDecodePointer3DInt, jscandec_test.go:2685 -/
example : session 80 ⟨false, false, false⟩ [
    /- 2686 -/ ⟨b!"42", zeros 8, .ok (.p (.p (.p (.i (42)))))⟩,
    /- 2688 -/ ⟨b!"1.1", zeros 8, .err 0 (.unexpectedValue)⟩,
    /- 2689 -/ ⟨b!"[]", zeros 8, .err 0 (.unexpectedValue)⟩,
    /- 2690 -/ ⟨b!"\"text\"", zeros 8, .err 0 (.unexpectedValue)⟩] = true := by decide +kernel

/- TestDecodeStructSlice, jscandec_test.go:2700 -/
example : session 82 ⟨false, false, false⟩ [
    /- 2701 -/ ⟨b!"[]", zeros 24, .ok (.l [])⟩,
    /- 2703 -/ ⟨b!"[{\"foo\":42,\"bar\":\"bazz\"}]", zeros 24, .ok (.l [.l [.i (42), .s b!"bazz"]])⟩,
    /- 2705 -/ ⟨[91, 10, 9, 9, 9, 123, 34, 102, 111, 111, 34, 58, 32, 49, 44, 32, 34, 98, 97, 114, 34, 58, 32, 34, 97, 34, 125, 44, 10, 9, 9, 9, 123, 34, 102, 111, 111, 34, 58, 32, 50, 44, 32, 34, 98, 97, 114, 34, 58, 32, 34, 97, 98, 34, 125, 44, 10, 9, 9, 9, 123, 34, 102, 111, 111, 34, 58, 32, 51, 44, 32, 34, 98, 97, 114, 34, 58, 32, 34, 97, 98, 99, 34, 125, 44, 10, 9, 9, 9, 123, 34, 102, 111, 111, 34, 58, 32, 52, 44, 32, 34, 98, 97, 114, 34, 58, 32, 34, 97, 98, 99, 100, 34, 125, 44, 10, 9, 9, 9, 123, 34, 102, 111, 111, 34, 58, 32, 53, 44, 32, 34, 98, 97, 114, 34, 58, 32, 34, 97, 98, 99, 100, 101, 34, 125, 44, 10, 9, 9, 9, 123, 34, 102, 111, 111, 34, 58, 32, 54, 44, 32, 34, 98, 97, 114, 34, 58, 32, 34, 97, 98, 99, 100, 101, 102, 34, 125, 44, 10, 9, 9, 9, 123, 34, 102, 111, 111, 34, 58, 32, 55, 44, 32, 34, 98, 97, 114, 34, 58, 32, 34, 97, 98, 99, 100, 101, 102, 103, 34, 125, 10, 9, 9, 93], zeros 24, .ok (.l [.l [.i (1), .s b!"a"], .l [.i (2), .s b!"ab"], .l [.i (3), .s b!"abc"], .l [.i (4), .s b!"abcd"], .l [.i (5), .s b!"abcde"], .l [.i (6), .s b!"abcdef"], .l [.i (7), .s b!"abcdefg"]])⟩,
    /- 2723 -/ ⟨[91, 10, 9, 9, 9, 123, 32, 125, 44, 10, 9, 9, 9, 110, 117, 108, 108, 44, 10, 9, 9, 9, 123, 34, 102, 97, 122, 34, 58, 52, 50, 44, 34, 98, 97, 122, 34, 58, 34, 98, 97, 122, 122, 34, 125, 10, 9, 9, 93], zeros 24, .ok (.l [.l [.i (0), .s []], .l [.i (0), .s []], .l [.i (0), .s []]])⟩,
    /- 2729 -/ ⟨[91, 10, 9, 9, 9, 123, 34, 98, 97, 114, 34, 58, 34, 97, 98, 99, 34, 44, 34, 102, 111, 111, 34, 58, 49, 50, 51, 52, 125, 44, 10, 9, 9, 9, 123, 34, 70, 79, 79, 34, 58, 52, 50, 44, 34, 66, 65, 82, 34, 58, 34, 98, 97, 122, 122, 34, 125, 44, 10, 9, 9, 9, 123, 34, 70, 111, 111, 34, 58, 52, 50, 44, 34, 66, 97, 114, 34, 58, 34, 98, 97, 122, 122, 34, 125, 44, 10, 9, 9, 9, 123, 34, 102, 111, 111, 34, 58, 110, 117, 108, 108, 44, 34, 98, 97, 114, 34, 58, 110, 117, 108, 108, 125, 44, 10, 9, 9, 9, 123, 34, 98, 97, 114, 34, 58, 34, 98, 97, 114, 34, 125, 44, 10, 9, 9, 9, 123, 34, 102, 111, 111, 34, 58, 49, 50, 51, 52, 53, 125, 44, 10, 9, 9, 9, 123, 34, 98, 97, 114, 34, 58, 34, 98, 97, 114, 34, 44, 34, 117, 110, 107, 110, 111, 119, 110, 34, 58, 52, 50, 44, 34, 102, 111, 111, 34, 58, 49, 48, 50, 125, 44, 10, 9, 9, 9, 123, 34, 117, 110, 107, 110, 111, 119, 110, 34, 58, 52, 50, 44, 32, 34, 117, 110, 107, 110, 111, 119, 110, 50, 34, 58, 32, 34, 98, 97, 100, 34, 125, 44, 10, 9, 9, 9, 123, 125, 44, 10, 9, 9, 9, 123, 34, 102, 97, 122, 34, 58, 52, 50, 44, 34, 98, 97, 122, 34, 58, 34, 98, 97, 122, 122, 34, 125, 10, 9, 9, 93], zeros 24, .ok (.l [.l [.i (1234), .s b!"abc"], .l [.i (42), .s b!"bazz"], .l [.i (42), .s b!"bazz"], .l [.i (0), .s []], .l [.i (0), .s b!"bar"], .l [.i (12345), .s []], .l [.i (102), .s b!"bar"], .l [.i (0), .s []], .l [.i (0), .s []], .l [.i (0), .s []]])⟩,
    /- 2754 -/ ⟨b!"1", zeros 24, .err 0 (.unexpectedValue)⟩,
    /- 2756 -/ ⟨b!"\"text\"", zeros 24, .err 0 (.unexpectedValue)⟩] = true := by decide +kernel

/- TestDecodeMapStringToString, jscandec_test.go:2762 -/
example : session 84 ⟨false, false, false⟩ [
    /- 2763 -/ ⟨b!"{}", zeros 8, .ok (.m [])⟩,
    /- 2764 -/ ⟨b!"{\"foo\":\"42\",\"bar\":\"bazz\"}", zeros 8, .ok (.m [(.s b!"foo", .s b!"42"), (.s b!"bar", .s b!"bazz")])⟩,
    /- 2766 -/ ⟨b!"{\"\":\"\"}", zeros 8, .ok (.m [(.s [], .s [])])⟩,
    /- 2768 -/ ⟨b!"{\"\":\"\", \"\":\"\"}", zeros 8, .ok (.m [(.s [], .s [])])⟩,
    /- 2770 -/ ⟨b!"{\"\":null}", zeros 8, .ok (.m [(.s [], .s [])])⟩,
    /- 2772 -/ ⟨b!"{\"a\":\"1\",\"a\":\"2\"}", zeros 8, .ok (.m [(.s b!"a", .s b!"2")])⟩,
    /- 2774 -/ ⟨b!"{\"\":\"1\", \"\":\"12\", \"\":\"123\"}", zeros 8, .ok (.m [(.s [], .s b!"123")])⟩,
    /- 2776 -/ ⟨[123, 10, 9, 9, 9, 34, 102, 111, 111, 34, 58, 32, 34, 49, 34, 44, 32, 34, 98, 97, 114, 34, 58, 32, 34, 97, 34, 44, 32, 34, 98, 97, 122, 34, 58, 32, 34, 50, 34, 44, 32, 34, 109, 117, 122, 122, 34, 58, 32, 34, 34, 44, 10, 9, 9, 9, 34, 108, 111, 110, 103, 101, 114, 95, 107, 101, 121, 34, 58, 32, 34, 108, 111, 110, 103, 101, 114, 32, 116, 101, 115, 116, 32, 116, 101, 120, 116, 34, 10, 9, 9, 125], zeros 8, .ok (.m [(.s b!"foo", .s b!"1"), (.s b!"bar", .s b!"a"), (.s b!"baz", .s b!"2"), (.s b!"muzz", .s []), (.s b!"longer_key", .s b!"longer test text")])⟩,
    /- 2784 -/ ⟨b!"{\"\\\"key\\\"\":\"\\\"value\\\"\\t\\u0042\"}", zeros 8, .ok (.m [(.s b!"\"key\"", .s [34, 118, 97, 108, 117, 101, 34, 9, 66])])⟩,
    /- 2787 -/ ⟨b!"1", zeros 8, .err 0 (.unexpectedValue)⟩,
    /- 2788 -/ ⟨b!"\"text\"", zeros 8, .err 0 (.unexpectedValue)⟩,
    /- 2789 -/ ⟨b!"[]", zeros 8, .err 0 (.unexpectedValue)⟩] = true := by decide +kernel

/- TestDecodeMapInt64ToString, jscandec_test.go:2922 -/
example : session 89 ⟨false, false, false⟩ [
    /- 2923 -/ ⟨b!"{}", zeros 8, .ok (.m [])⟩,
    /- 2924 -/ ⟨b!"null", zeros 8, .ok (.nil)⟩,
    /- 2925 -/ ⟨[123, 34, 48, 34, 58, 48, 44, 10, 9, 9, 34, 45, 57, 50, 50, 51, 51, 55, 50, 48, 51, 54, 56, 53, 52, 55, 55, 53, 56, 48, 56, 34, 58, 45, 57, 50, 50, 51, 51, 55, 50, 48, 51, 54, 56, 53, 52, 55, 55, 53, 56, 48, 56, 44, 10, 9, 9, 34, 57, 50, 50, 51, 51, 55, 50, 48, 51, 54, 56, 53, 52, 55, 55, 53, 56, 48, 55, 34, 58, 57, 50, 50, 51, 51, 55, 50, 48, 51, 54, 56, 53, 52, 55, 55, 53, 56, 48, 55, 125], zeros 8, .ok (.m [(.i (0), .i (0)), (.i (-9223372036854775808), .i (-9223372036854775808)), (.i (9223372036854775807), .i (9223372036854775807))])⟩,
    /- 2934 -/ ⟨b!"{\"1\": 42}", seg 8 (.map [(.int (1), seg 8 (.int (10))), (.int (2), seg 8 (.int (20)))]), .ok (.m [(.i (1), .i (42)), (.i (2), .i (20))])⟩,
    /- 2938 -/ ⟨b!"{\"2\": 42}", seg 8 (.map [(.int (1), seg 8 (.int (10))), (.int (2), seg 8 (.int (20)))]), .ok (.m [(.i (1), .i (10)), (.i (2), .i (42))])⟩,
    /- 2942 -/ ⟨b!"{\"2\": 42, \"1\": 42, \"3\": 42}", seg 8 (.map [(.int (1), seg 8 (.int (10))), (.int (2), seg 8 (.int (20)))]), .ok (.m [(.i (1), .i (42)), (.i (2), .i (42)), (.i (3), .i (42))])⟩,
    /- 2947 -/ ⟨b!"{\"9223372036854775808\":0}", zeros 8, .err 1 (.unexpectedValue)⟩,
    /- 2949 -/ ⟨b!"{\"-9223372036854775809\":0}", zeros 8, .err 1 (.unexpectedValue)⟩,
    /- 2951 -/ ⟨b!"{\"3.14\":0}", zeros 8, .err 1 (.unexpectedValue)⟩,
    /- 2953 -/ ⟨b!"{\"3e2\":0}", zeros 8, .err 1 (.unexpectedValue)⟩,
    /- 2955 -/ ⟨b!"1", zeros 8, .err 0 (.unexpectedValue)⟩,
    /- 2957 -/ ⟨b!"\"text\"", zeros 8, .err 0 (.unexpectedValue)⟩,
    /- 2959 -/ ⟨b!"[]", zeros 8, .err 0 (.unexpectedValue)⟩] = true := by decide +kernel

/- TestDecodeMapStringToMapStringToString, jscandec_test.go:3123 -/
example : session 95 ⟨false, false, false⟩ [
    /- 3124 -/ ⟨b!"{}", zeros 8, .ok (.m [])⟩,
    /- 3125 -/ ⟨[123, 10, 9, 9, 9, 34, 97, 34, 58, 123, 34, 97, 49, 34, 58, 34, 97, 49, 118, 97, 108, 34, 44, 34, 97, 50, 34, 58, 34, 97, 50, 118, 97, 108, 34, 125, 44, 10, 9, 9, 9, 34, 98, 34, 58, 123, 34, 98, 49, 34, 58, 34, 98, 49, 118, 97, 108, 34, 44, 34, 98, 50, 34, 58, 34, 98, 50, 118, 97, 108, 34, 125, 10, 9, 9, 125], zeros 8, .ok (.m [(.s b!"a", .m [(.s b!"a1", .s b!"a1val"), (.s b!"a2", .s b!"a2val")]), (.s b!"b", .m [(.s b!"b1", .s b!"b1val"), (.s b!"b2", .s b!"b2val")])])⟩,
    /- 3134 -/ ⟨b!"{\"\":{\"\":\"\"}}", zeros 8, .ok (.m [(.s [], .m [(.s [], .s [])])])⟩,
    /- 3136 -/ ⟨b!"{\"\":{\"\":\"\", \"\":\"\"}, \"\":{\"\":\"\", \"\":\"\"}}", zeros 8, .ok (.m [(.s [], .m [(.s [], .s [])])])⟩,
    /- 3139 -/ ⟨b!"{\"n\":null,\"x\":{\"x\":null}}", zeros 8, .ok (.m [(.s b!"n", .nil), (.s b!"x", .m [(.s b!"x", .s [])])])⟩,
    /- 3141 -/ ⟨b!"{\"a\":{\"foo\":\"bar\"},\"a\":{\"baz\":\"faz\"}}", zeros 8, .ok (.m [(.s b!"a", .m [(.s b!"baz", .s b!"faz")])])⟩,
    /- 3144 -/ ⟨b!"{\"\":{\"a\":\"b\"}, \"\":{\"c\":\"d\"}, \"\":{\"e\":\"f\"}}", zeros 8, .ok (.m [(.s [], .m [(.s b!"e", .s b!"f")])])⟩,
    /- 3147 -/ ⟨[123, 10, 9, 9, 9, 34, 34, 58, 123, 125, 44, 10, 9, 9, 9, 34, 102, 105, 114, 115, 116, 95, 107, 101, 121, 34, 58, 123, 34, 102, 49, 34, 58, 34, 102, 105, 114, 115, 116, 49, 95, 118, 97, 108, 117, 101, 34, 44, 34, 102, 50, 34, 58, 34, 102, 105, 114, 115, 116, 50, 95, 118, 97, 108, 117, 101, 34, 125, 44, 10, 9, 9, 9, 34, 115, 101, 99, 111, 110, 100, 95, 107, 101, 121, 34, 58, 110, 117, 108, 108, 10, 9, 9, 125], zeros 8, .ok (.m [(.s [], .m []), (.s b!"first_key", .m [(.s b!"f1", .s b!"first1_value"), (.s b!"f2", .s b!"first2_value")]), (.s b!"second_key", .nil)])⟩,
    /- 3157 -/ ⟨b!"{\" \\b \" : {\" \\\" \":\" \\u30C4 \"} }", zeros 8, .ok (.m [(.s [32, 8, 32], .m [(.s b!" \" ", .s [32, 227, 131, 132, 32])])])⟩,
    /- 3160 -/ ⟨b!"{\"a\": {}}", seg 8 (.map [(.str ⟨b!"a", false⟩, seg 8 (.map [(.str ⟨b!"a1", false⟩, seg 16 (.str ⟨b!"a1_b", false⟩)), (.str ⟨b!"a2", false⟩, seg 16 (.str ⟨b!"a2_v", false⟩))])), (.str ⟨b!"b", false⟩, seg 8 (.map [(.str ⟨b!"b1", false⟩, seg 16 (.str ⟨b!"b1_v", false⟩))]))]), .ok (.m [(.s b!"a", .m []), (.s b!"b", .m [(.s b!"b1", .s b!"b1_v")])])⟩,
    /- 3166 -/ ⟨b!"{\"a\": {\"a2\":\"NEWVAL\"}}", seg 8 (.map [(.str ⟨b!"a", false⟩, seg 8 (.map [(.str ⟨b!"a1", false⟩, seg 16 (.str ⟨b!"a1_b", false⟩)), (.str ⟨b!"a2", false⟩, seg 16 (.str ⟨b!"a2_v", false⟩))])), (.str ⟨b!"b", false⟩, seg 8 (.map [(.str ⟨b!"b1", false⟩, seg 16 (.str ⟨b!"b1_v", false⟩))]))]), .ok (.m [(.s b!"a", .m [(.s b!"a2", .s b!"NEWVAL")]), (.s b!"b", .m [(.s b!"b1", .s b!"b1_v")])])⟩,
    /- 3172 -/ ⟨b!"{\"a\": {\"a2\":\"NEWVAL1\",\"a1\":\"NEWVAL2\"}, \"b\": {\"b1\": \"NEWVAL3\", \"bNEW\": \"NV3\"} }", seg 8 (.map [(.str ⟨b!"a", false⟩, seg 8 (.map [(.str ⟨b!"a1", false⟩, seg 16 (.str ⟨b!"a1_b", false⟩)), (.str ⟨b!"a2", false⟩, seg 16 (.str ⟨b!"a2_v", false⟩))])), (.str ⟨b!"b", false⟩, seg 8 (.map [(.str ⟨b!"b1", false⟩, seg 16 (.str ⟨b!"b1_v", false⟩))]))]), .ok (.m [(.s b!"a", .m [(.s b!"a1", .s b!"NEWVAL2"), (.s b!"a2", .s b!"NEWVAL1")]), (.s b!"b", .m [(.s b!"b1", .s b!"NEWVAL3"), (.s b!"bNEW", .s b!"NV3")])])⟩,
    /- 3184 -/ ⟨b!"1", zeros 8, .err 0 (.unexpectedValue)⟩,
    /- 3185 -/ ⟨b!"\"text\"", zeros 8, .err 0 (.unexpectedValue)⟩,
    /- 3186 -/ ⟨b!"[]", zeros 8, .err 0 (.unexpectedValue)⟩,
    /- 3187 -/ ⟨b!"{\"foo\":\"bar\"}", zeros 8, .err 7 (.unexpectedValue)⟩,
    /- 3188 -/ ⟨b!"{\"foo\":{\"bar\":42}}", zeros 8, .err 14 (.unexpectedValue)⟩] = true := by decide +kernel

/- TestDecodeTextUnmarshaler, jscandec_test.go:3337 -/
example : session 103 ⟨false, false, false⟩ [
    /- 3338 -/ ⟨b!"\"text\"", zeros 16, .ok (.s b!"text")⟩,
    /- 3339 -/ ⟨b!"\"\\\"text\\\"\"", zeros 16, .ok (.s b!"\"text\"")⟩,
    /- 3340 -/ ⟨b!"null", zeros 16, .ok (.s [])⟩,
    /- 3341 -/ ⟨b!"\"\"", zeros 16, .ok (.s [])⟩,
    /- 3343 -/ ⟨b!"123", zeros 16, .err 0 (.unexpectedValue)⟩,
    /- 3344 -/ ⟨b!"3.14", zeros 16, .err 0 (.unexpectedValue)⟩,
    /- 3345 -/ ⟨b!"true", zeros 16, .err 0 (.unexpectedValue)⟩,
    /- 3346 -/ ⟨b!"false", zeros 16, .err 0 (.unexpectedValue)⟩,
    /- 3347 -/ ⟨b!"true", zeros 16, .err 0 (.unexpectedValue)⟩,
    /- 3348 -/ ⟨b!"[]", zeros 16, .err 0 (.unexpectedValue)⟩,
    /- 3349 -/ ⟨b!"[\"foo\"]", zeros 16, .err 0 (.unexpectedValue)⟩,
    /- 3350 -/ ⟨b!"{}", zeros 16, .err 0 (.unexpectedValue)⟩,
    /- 3351 -/ ⟨b!"{\"foo\":\"bar\"}", zeros 16, .err 0 (.unexpectedValue)⟩] = true := by decide +kernel

/- TestDecodeJSONUnmarshalerErr, jscandec_test.go:3418 -/
example : session 106 ⟨false, false, false⟩ [
    /- 3419 -/ ⟨b!"123", zeros 16, .errAny (.user 7)⟩] = true := by decide +kernel

/- TestDecodeJSONUnmarshalerErr, jscandec_test.go:3429 -/
example : session 110 ⟨false, false, false⟩ [
    /- 3430 -/ ⟨b!"{\"Unmarshaler\":\"abc\"}", zeros 16, .errAny (.user 7)⟩] = true := by decide +kernel

end Verif.Conform
