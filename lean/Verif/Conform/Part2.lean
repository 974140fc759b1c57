import Verif.Conform.Types
/-!
# Tests of the repository, run in the model (generated by tools/conformance)

The number in front of each test is its line in jscandec_test.go.
-/
namespace Verif.Conform
open Verif.Model Verif.Spec

/- TestDecodeInt16, jscandec_test.go:541 -/
example : session 11 ⟨false, false, false⟩ [
    /- 542 -/ ⟨b!"null", zeros 2, .ok (.i (0))⟩,
    /- 543 -/ ⟨b!"0", zeros 2, .ok (.i (0))⟩,
    /- 544 -/ ⟨b!"1", zeros 2, .ok (.i (1))⟩,
    /- 545 -/ ⟨b!"-1", zeros 2, .ok (.i (-1))⟩,
    /- 546 -/ ⟨b!"-32768", zeros 2, .ok (.i (-32768))⟩,
    /- 547 -/ ⟨b!"32767", zeros 2, .ok (.i (32767))⟩,
    /- 549 -/ ⟨b!"32768", zeros 2, .err 0 (.integerOverflow)⟩,
    /- 550 -/ ⟨b!"-32769", zeros 2, .err 0 (.integerOverflow)⟩,
    /- 552 -/ ⟨b!"\"text\"", zeros 2, .err 0 (.unexpectedValue)⟩,
    /- 553 -/ ⟨b!"true", zeros 2, .err 0 (.unexpectedValue)⟩,
    /- 554 -/ ⟨b!"false", zeros 2, .err 0 (.unexpectedValue)⟩,
    /- 555 -/ ⟨b!"[]", zeros 2, .err 0 (.unexpectedValue)⟩] = true := by decide +kernel

/- TestDecodeNull, jscandec_test.go:596 -/
example : session 14 ⟨false, false, false⟩ [
    /- 596 -/ ⟨b!"null", zeros 16, .ok (.s [])⟩] = true := by decide +kernel

/- TestDecodeNull, jscandec_test.go:602 -/
example : session 7 ⟨false, false, false⟩ [
    /- 602 -/ ⟨b!"null", zeros 8, .ok (.i (0))⟩] = true := by decide +kernel

/- TestDecodeNull, jscandec_test.go:612 -/
example : session 15 ⟨false, false, false⟩ [
    /- 612 -/ ⟨b!"null", zeros 24, .ok (.nil)⟩] = true := by decide +kernel

/- TestDecodeNull, jscandec_test.go:618 -/
example : session 15 ⟨false, false, false⟩ [
    /- 618 -/ ⟨b!"[null]", zeros 24, .ok (.l [.b false])⟩] = true := by decide +kernel

/- TestDecodeNull, jscandec_test.go:630 -/
example : session 21 ⟨false, false, false⟩ [
    /- 630 -/ ⟨b!"[null]", zeros 24, .ok (.l [.i (0)])⟩] = true := by decide +kernel

/- TestDecodeNull, jscandec_test.go:640 -/
example : session 26 ⟨false, false, false⟩ [
    /- 640 -/ ⟨b!"[null]", zeros 24, .ok (.l [.i (0)])⟩] = true := by decide +kernel

/- TestDecodeSliceInt64, jscandec_test.go:838 -/
example : session 21 ⟨false, false, false⟩ [
    /- 839 -/ ⟨b!"[ 1, -23, 123 ]", zeros 24, .ok (.l [.i (1), .i (-23), .i (123)])⟩,
    /- 840 -/ ⟨b!"[9223372036854775807]", zeros 24, .ok (.l [.i (9223372036854775807)])⟩,
    /- 841 -/ ⟨b!"[-9223372036854775808]", zeros 24, .ok (.l [.i (-9223372036854775808)])⟩,
    /- 842 -/ ⟨b!"[ 1 ]", zeros 24, .ok (.l [.i (1)])⟩,
    /- 843 -/ ⟨b!"[]", zeros 24, .ok (.l [])⟩,
    /- 844 -/ ⟨b!"null", zeros 24, .ok (.nil)⟩,
    /- 845 -/ ⟨b!"[ null ]", zeros 24, .ok (.l [.i (0)])⟩,
    /- 846 -/ ⟨b!"[ null, 1, null ]", zeros 24, .ok (.l [.i (0), .i (1), .i (0)])⟩,
    /- 848 -/ ⟨b!"[1,2,3]", seg 24 (.slice 3 3 (seg 8 (.int (10)) ++ seg 8 (.int (20)) ++ seg 8 (.int (30)))), .ok (.l [.i (1), .i (2), .i (3)])⟩,
    /- 852 -/ ⟨b!"[1,2,3]", zeros 24, .ok (.l [.i (1), .i (2), .i (3)])⟩,
    /- 856 -/ ⟨b!"[1,2,3]", seg 24 (.slice 2 2 (seg 8 (.int (10)) ++ seg 8 (.int (20)))), .ok (.l [.i (1), .i (2), .i (3)])⟩,
    /- 860 -/ ⟨b!"[1,2,3]", seg 24 (.slice 4 4 (seg 8 (.int (10)) ++ seg 8 (.int (20)) ++ seg 8 (.int (30)) ++ seg 8 (.int (40)))), .ok (.l [.i (1), .i (2), .i (3)])⟩,
    /- 865 -/ ⟨b!"[9223372036854775808]", zeros 24, .err 1 (.integerOverflow)⟩,
    /- 867 -/ ⟨b!"[-9223372036854775809]", zeros 24, .err 1 (.integerOverflow)⟩,
    /- 869 -/ ⟨b!"{}", zeros 24, .err 0 (.unexpectedValue)⟩,
    /- 871 -/ ⟨b!"[1,3.14]", zeros 24, .err 3 (.unexpectedValue)⟩,
    /- 873 -/ ⟨b!"[1,\"nope\"]", zeros 24, .err 3 (.unexpectedValue)⟩] = true := by decide +kernel

/- TestDecodeMatrix2Int, jscandec_test.go:1322 -/
example : session 31 ⟨false, false, false⟩ [
    /- 1323 -/ ⟨b!"null", zeros 32, .ok (.l [.l [.i (0), .i (0)], .l [.i (0), .i (0)]])⟩,
    /- 1326 -/ ⟨b!"[]", zeros 32, .ok (.l [.l [.i (0), .i (0)], .l [.i (0), .i (0)]])⟩,
    /- 1329 -/ ⟨b!"[[0,1],[2,3]]", zeros 32, .ok (.l [.l [.i (0), .i (1)], .l [.i (2), .i (3)]])⟩,
    /- 1332 -/ ⟨b!"[[],[]]", zeros 32, .ok (.l [.l [.i (0), .i (0)], .l [.i (0), .i (0)]])⟩,
    /- 1335 -/ ⟨b!"[[1],[2]]", zeros 32, .ok (.l [.l [.i (1), .i (0)], .l [.i (2), .i (0)]])⟩,
    /- 1338 -/ ⟨b!"[[1,2],[3]]", zeros 32, .ok (.l [.l [.i (1), .i (2)], .l [.i (3), .i (0)]])⟩,
    /- 1341 -/ ⟨b!"[[1,2,  3,4],[5,6,  7,8,9,10]]", zeros 32, .ok (.l [.l [.i (1), .i (2)], .l [.i (5), .i (6)]])⟩,
    /- 1344 -/ ⟨b!"[[1,2],[3,4],  [5,6]]", zeros 32, .ok (.l [.l [.i (1), .i (2)], .l [.i (3), .i (4)]])⟩] = true := by decide +kernel

/- TestDecodeEmptyStruct, jscandec_test.go:1377 -/
example : session 35 ⟨false, false, false⟩ [
    /- 1378 -/ ⟨b!"null", zeros 0, .ok (.l [])⟩,
    /- 1379 -/ ⟨b!"{}", zeros 0, .ok (.l [])⟩,
    /- 1380 -/ ⟨b!"{\"x\":\"y\"}", zeros 0, .ok (.l [])⟩,
    /- 1381 -/ ⟨b!"{\"x\":\"y\",\"abc\":[{\"x\":\"y\",\"2\":42}, null, {}]}", zeros 0, .ok (.l [])⟩,
    /- 1384 -/ ⟨b!"true", zeros 0, .err 0 (.unexpectedValue)⟩,
    /- 1386 -/ ⟨b!"false", zeros 0, .err 0 (.unexpectedValue)⟩,
    /- 1388 -/ ⟨b!"1", zeros 0, .err 0 (.unexpectedValue)⟩,
    /- 1390 -/ ⟨b!"\"text\"", zeros 0, .err 0 (.unexpectedValue)⟩,
    /- 1392 -/ ⟨b!"[]", zeros 0, .err 0 (.unexpectedValue)⟩,
    /- 1394 -/ ⟨b!"[{},{}]", zeros 0, .err 0 (.unexpectedValue)⟩] = true := by decide +kernel

/- TestDecodeSliceStruct, jscandec_test.go:1441 -/
example : session 38 ⟨false, false, false⟩ [
    /- 1442 -/ ⟨b!"null", zeros 24, .ok (.nil)⟩,
    /- 1443 -/ ⟨b!"[]", zeros 24, .ok (.l [])⟩,
    /- 1444 -/ ⟨b!"[{}]", zeros 24, .ok (.l [.l [.i (0), .i (0)]])⟩,
    /- 1445 -/ ⟨b!"[null]", zeros 24, .ok (.l [.l [.i (0), .i (0)]])⟩,
    /- 1446 -/ ⟨b!"[{\"A\":1,\"B\":2}]", zeros 24, .ok (.l [.l [.i (1), .i (2)]])⟩,
    /- 1447 -/ ⟨b!"[{\"B\":2}]", zeros 24, .ok (.l [.l [.i (0), .i (2)]])⟩,
    /- 1448 -/ ⟨b!"[{\"A\":1,\"X\":99,\"B\":2}]", zeros 24, .ok (.l [.l [.i (1), .i (2)]])⟩,
    /- 1449 -/ ⟨b!"[{},null,{}]", zeros 24, .ok (.l [.l [.i (0), .i (0)], .l [.i (0), .i (0)], .l [.i (0), .i (0)]])⟩,
    /- 1450 -/ ⟨b!"[{\"B\":2},null,{\"A\":3}]", zeros 24, .ok (.l [.l [.i (0), .i (2)], .l [.i (0), .i (0)], .l [.i (3), .i (0)]])⟩,
    /- 1452 -/ ⟨b!"[{\"A\":1}, {\"B\":2}, {\"C\":3,\"B\":3}]", seg 24 (.slice 3 3 ((seg 8 (.int (9))) ++ (seg 8 (.int (9))) ++ (seg 8 (.int (9))) ++ (seg 8 (.int (9))) ++ (seg 8 (.int (9))) ++ (seg 8 (.int (9))))), .ok (.l [.l [.i (1), .i (9)], .l [.i (9), .i (2)], .l [.i (9), .i (3)]])⟩,
    /- 1456 -/ ⟨b!"[{}, null, {\"B\":1}]", zeros 24, .ok (.l [.l [.i (0), .i (0)], .l [.i (0), .i (0)], .l [.i (0), .i (1)]])⟩,
    /- 1460 -/ ⟨b!"[ {\"B\":1}, null, {\"A\":1, \"B\":2} ]", seg 24 (.slice 2 2 ((seg 8 (.int (9))) ++ (seg 8 (.int (9))) ++ (seg 8 (.int (9))) ++ (seg 8 (.int (9))))), .ok (.l [.l [.i (9), .i (1)], .l [.i (9), .i (9)], .l [.i (1), .i (2)]])⟩,
    /- 1464 -/ ⟨b!"[{}, null, {\"A\":42}, {\"A\":1,\"B\":2}]", seg 24 (.slice 5 5 ((seg 8 (.int (9))) ++ (seg 8 (.int (9))) ++ (seg 8 (.int (9))) ++ (seg 8 (.int (9))) ++ (seg 8 (.int (9))) ++ (seg 8 (.int (9))) ++ (seg 8 (.int (9))) ++ (seg 8 (.int (9))) ++ (seg 8 (.int (9))) ++ (seg 8 (.int (9))))), .ok (.l [.l [.i (9), .i (9)], .l [.i (9), .i (9)], .l [.i (42), .i (9)], .l [.i (1), .i (2)]])⟩,
    /- 1473 -/ ⟨b!"true", zeros 24, .err 0 (.unexpectedValue)⟩,
    /- 1475 -/ ⟨b!"false", zeros 24, .err 0 (.unexpectedValue)⟩,
    /- 1477 -/ ⟨b!"1", zeros 24, .err 0 (.unexpectedValue)⟩,
    /- 1479 -/ ⟨b!"\"text\"", zeros 24, .err 0 (.unexpectedValue)⟩,
    /- 1481 -/ ⟨b!"{}", zeros 24, .err 0 (.unexpectedValue)⟩,
    /- 1483 -/ ⟨b!"{\"x\":0}", zeros 24, .err 0 (.unexpectedValue)⟩,
    /- 1485 -/ ⟨b!"[123]", zeros 24, .err 1 (.unexpectedValue)⟩,
    /- 1487 -/ ⟨b!"[\"x\"]", zeros 24, .err 1 (.unexpectedValue)⟩,
    /- 1489 -/ ⟨b!"[{\"A\": 2.2}]", zeros 24, .err 7 (.unexpectedValue)⟩,
    /- 1491 -/ ⟨b!"[{\"B\": 1e10}]", zeros 24, .err 7 (.unexpectedValue)⟩,
    /- 1493 -/ ⟨b!"[{\"B\": \"123\"}]", zeros 24, .err 7 (.unexpectedValue)⟩,
    /- 1495 -/ ⟨b!"[{\"B\": true}]", zeros 24, .err 7 (.unexpectedValue)⟩] = true := by decide +kernel

/- TestDecodeArrayLen0, jscandec_test.go:1554 -/
example : session 42 ⟨false, false, false⟩ [
    /- 1555 -/ ⟨b!"null", zeros 0, .ok (.l [])⟩,
    /- 1556 -/ ⟨b!"[]", zeros 0, .ok (.l [])⟩,
    /- 1557 -/ ⟨b!"[1]", zeros 0, .ok (.l [])⟩,
    /- 1558 -/ ⟨b!"[{}]", zeros 0, .ok (.l [])⟩,
    /- 1559 -/ ⟨b!"[false,true,{},{\"x\":\"y\"},[],null,42,3.14]", zeros 0, .ok (.l [])⟩,
    /- 1562 -/ ⟨b!"true", zeros 0, .err 0 (.unexpectedValue)⟩,
    /- 1564 -/ ⟨b!"false", zeros 0, .err 0 (.unexpectedValue)⟩,
    /- 1566 -/ ⟨b!"1", zeros 0, .err 0 (.unexpectedValue)⟩,
    /- 1568 -/ ⟨b!"3.14", zeros 0, .err 0 (.unexpectedValue)⟩,
    /- 1570 -/ ⟨b!"\"text\"", zeros 0, .err 0 (.unexpectedValue)⟩,
    /- 1572 -/ ⟨b!"{}", zeros 0, .err 0 (.unexpectedValue)⟩,
    /- 1574 -/ ⟨b!"{\"x\":0}", zeros 0, .err 0 (.unexpectedValue)⟩] = true := by decide +kernel

/- TestDecodeStructRecursiveSlice, jscandec_test.go:1850 -/
example : session 50 ⟨false, false, false⟩ [
    /- 1851 -/ ⟨b!"null", zeros 56, .ok (.l [.s [], .s [], .nil])⟩,
    /- 1852 -/ ⟨b!"{}", zeros 56, .ok (.l [.s [], .s [], .nil])⟩,
    /- 1853 -/ ⟨b!"{\"id\":\"root\"}", zeros 56, .ok (.l [.s b!"root", .s [], .nil])⟩,
    /- 1854 -/ ⟨b!"{\"id\":\"root\",\"recurse\":[{\"id\":\"level2\", \"name\": \"Level 2\"}]}", zeros 56, .ok (.l [.s b!"root", .s [], .l [.l [.s b!"level2", .s b!"Level 2", .nil]]])⟩,
    /- 1857 -/ ⟨[123, 10, 9, 9, 9, 34, 105, 100, 34, 58, 32, 34, 114, 111, 111, 116, 34, 44, 10, 9, 9, 9, 34, 114, 101, 99, 117, 114, 115, 101, 34, 58, 32, 91, 123, 10, 9, 9, 9, 9, 34, 105, 100, 34, 58, 32, 34, 108, 101, 118, 101, 108, 50, 34, 44, 10, 9, 9, 9, 9, 34, 114, 101, 99, 117, 114, 115, 101, 34, 58, 32, 91, 123, 10, 9, 9, 9, 9, 9, 34, 105, 100, 34, 58, 32, 34, 108, 101, 118, 101, 108, 51, 34, 10, 9, 9, 9, 9, 125, 93, 10, 9, 9, 9, 125, 93, 10, 9, 9, 125], zeros 56, .ok (.l [.s b!"root", .s [], .l [.l [.s b!"level2", .s [], .l [.l [.s b!"level3", .s [], .nil]]]]])⟩,
    /- 1868 -/ ⟨[123, 10, 9, 9, 9, 34, 114, 101, 99, 117, 114, 115, 101, 34, 58, 32, 91, 123, 10, 9, 9, 9, 9, 34, 114, 101, 99, 117, 114, 115, 101, 34, 58, 32, 91, 123, 10, 9, 9, 9, 9, 9, 34, 105, 100, 34, 58, 32, 34, 108, 101, 118, 101, 108, 51, 34, 10, 9, 9, 9, 9, 125, 93, 44, 10, 9, 9, 9, 9, 34, 105, 100, 34, 58, 32, 34, 108, 101, 118, 101, 108, 50, 34, 10, 9, 9, 9, 125, 93, 44, 10, 9, 9, 9, 34, 105, 100, 34, 58, 32, 34, 114, 111, 111, 116, 34, 10, 9, 9, 125], zeros 56, .ok (.l [.s b!"root", .s [], .l [.l [.s b!"level2", .s [], .l [.l [.s b!"level3", .s [], .nil]]]]])⟩,
    /- 1879 -/ ⟨[123, 10, 9, 9, 9, 34, 114, 101, 99, 117, 114, 115, 101, 34, 58, 32, 91, 123, 10, 9, 9, 9, 9, 34, 114, 101, 99, 117, 114, 115, 101, 34, 58, 32, 91, 123, 125, 93, 10, 9, 9, 9, 125, 93, 10, 9, 9, 125], zeros 56, .ok (.l [.s [], .s [], .l [.l [.s [], .s [], .l [.l [.s [], .s [], .nil]]]]])⟩,
    /- 1886 -/ ⟨[123, 10, 9, 9, 9, 34, 105, 100, 34, 58, 32, 34, 114, 111, 111, 116, 34, 44, 10, 9, 9, 9, 34, 114, 101, 99, 117, 114, 115, 101, 34, 58, 32, 110, 117, 108, 108, 10, 9, 9, 125], zeros 56, .ok (.l [.s b!"root", .s [], .nil])⟩,
    /- 1892 -/ ⟨[123, 10, 9, 9, 9, 34, 105, 100, 34, 58, 32, 34, 114, 111, 111, 116, 34, 44, 10, 9, 9, 9, 34, 114, 101, 99, 117, 114, 115, 101, 34, 58, 32, 91, 93, 10, 9, 9, 125], zeros 56, .ok (.l [.s b!"root", .s [], .l []])⟩,
    /- 1898 -/ ⟨[123, 10, 9, 9, 9, 34, 105, 100, 34, 58, 32, 34, 114, 111, 111, 116, 34, 44, 10, 9, 9, 9, 34, 114, 101, 99, 117, 114, 115, 101, 34, 58, 32, 91, 123, 10, 9, 9, 9, 9, 34, 105, 100, 34, 58, 34, 108, 101, 118, 101, 108, 50, 34, 44, 10, 9, 9, 9, 9, 34, 114, 101, 99, 117, 114, 115, 101, 34, 58, 32, 110, 117, 108, 108, 10, 9, 9, 9, 125, 93, 10, 9, 9, 125], zeros 56, .ok (.l [.s b!"root", .s [], .l [.l [.s b!"level2", .s [], .nil]]])⟩,
    /- 1907 -/ ⟨[123, 10, 9, 9, 9, 34, 105, 100, 34, 58, 32, 34, 114, 111, 111, 116, 34, 44, 10, 9, 9, 9, 34, 114, 101, 99, 117, 114, 115, 101, 34, 58, 32, 91, 123, 10, 9, 9, 9, 9, 34, 105, 100, 34, 58, 34, 108, 101, 118, 101, 108, 50, 34, 44, 10, 9, 9, 9, 9, 34, 114, 101, 99, 117, 114, 115, 101, 34, 58, 32, 91, 123, 125, 93, 10, 9, 9, 9, 125, 93, 10, 9, 9, 125], zeros 56, .ok (.l [.s b!"root", .s [], .l [.l [.s b!"level2", .s [], .l [.l [.s [], .s [], .nil]]]]])⟩,
    /- 1916 -/ ⟨[123, 10, 9, 9, 9, 34, 114, 101, 99, 117, 114, 115, 101, 34, 58, 32, 91, 123, 10, 9, 9, 9, 9, 34, 114, 101, 99, 117, 114, 115, 101, 34, 58, 32, 91, 123, 10, 9, 9, 9, 9, 9, 34, 117, 110, 107, 110, 111, 119, 110, 34, 58, 91, 34, 111, 107, 97, 121, 34, 93, 10, 9, 9, 9, 9, 125, 93, 10, 9, 9, 9, 125, 93, 10, 9, 9, 125], zeros 56, .ok (.l [.s [], .s [], .l [.l [.s [], .s [], .l [.l [.s [], .s [], .nil]]]]])⟩,
    /- 1925 -/ ⟨[123, 10, 9, 9, 9, 34, 82, 69, 67, 85, 82, 83, 69, 34, 58, 32, 91, 123, 10, 9, 9, 9, 9, 34, 82, 69, 67, 85, 82, 83, 69, 34, 58, 32, 91, 123, 10, 9, 9, 9, 9, 9, 34, 73, 68, 34, 58, 32, 34, 108, 101, 118, 101, 108, 51, 34, 10, 9, 9, 9, 9, 125, 93, 44, 10, 9, 9, 9, 9, 34, 73, 68, 34, 58, 32, 34, 108, 101, 118, 101, 108, 50, 34, 10, 9, 9, 9, 125, 93, 44, 10, 9, 9, 9, 34, 73, 68, 34, 58, 32, 34, 114, 111, 111, 116, 34, 10, 9, 9, 125], zeros 56, .ok (.l [.s b!"root", .s [], .l [.l [.s b!"level2", .s [], .l [.l [.s b!"level3", .s [], .nil]]]]])⟩,
    /- 1937 -/ ⟨b!"{\"name\":\"Root\", \"recurse\":[{\"name\": \"L2\"}]}", (seg 16 (.str ⟨b!"root", false⟩)) ++ (zeros 16) ++ (seg 24 (.slice 1 1 ((seg 16 (.str ⟨b!"level2", false⟩)) ++ (zeros 16) ++ (zeros 24)))), .ok (.l [.s b!"root", .s b!"Root", .l [.l [.s b!"level2", .s b!"L2", .nil]]])⟩,
    /- 1946 -/ ⟨b!"{\"name\":\"Root\", \"recurse\":null}", (seg 16 (.str ⟨b!"root", false⟩)) ++ (zeros 16) ++ (seg 24 (.slice 1 1 ((seg 16 (.str ⟨b!"level2", false⟩)) ++ (zeros 16) ++ (zeros 24)))), .ok (.l [.s b!"root", .s b!"Root", .nil])⟩,
    /- 1953 -/ ⟨b!"{\"name\":\"Root\", \"recurse\":[{}]}", (seg 16 (.str ⟨b!"root", false⟩)) ++ (zeros 16) ++ (seg 24 (.slice 1 1 ((seg 16 (.str ⟨b!"level2", false⟩)) ++ (zeros 16) ++ (zeros 24)))), .ok (.l [.s b!"root", .s b!"Root", .l [.l [.s b!"level2", .s [], .nil]]])⟩,
    /- 1959 -/ ⟨b!"{\"name\":\"Root\", \"recurse\":[{\"fuzz\":\"inexistent\"}]}", (seg 16 (.str ⟨b!"root", false⟩)) ++ (zeros 16) ++ (seg 24 (.slice 1 1 ((seg 16 (.str ⟨b!"level2", false⟩)) ++ (zeros 16) ++ (zeros 24)))), .ok (.l [.s b!"root", .s b!"Root", .l [.l [.s b!"level2", .s [], .nil]]])⟩,
    /- 1966 -/ ⟨b!"{\"id\":\"root\",\"recurse\":{}}", zeros 56, .err 23 (.unexpectedValue)⟩,
    /- 1968 -/ ⟨b!"{\"id\":\"root\",\"recurse\":[{\"id\":\"2\",\"recurse\":\"x\"}]}", zeros 56, .err 44 (.unexpectedValue)⟩,
    /- 1970 -/ ⟨b!"1", zeros 56, .err 0 (.unexpectedValue)⟩,
    /- 1972 -/ ⟨b!"[]", zeros 56, .err 0 (.unexpectedValue)⟩,
    /- 1974 -/ ⟨b!"\"text\"", zeros 56, .err 0 (.unexpectedValue)⟩] = true := by decide +kernel

/- TestDecodeStringTagString, jscandec_test.go:2304 -/
example : session 59 ⟨false, false, false⟩ [
    /- 2305 -/ ⟨b!"{\"string\":\"\\\"\\\"\"}", zeros 16, .ok (.l [.s []])⟩,
    /- 2307 -/ ⟨b!"{\"string\":\"\\\" \\\"\"}", zeros 16, .ok (.l [.s b!" "])⟩,
    /- 2309 -/ ⟨b!"{\"string\":\"\\\"text\\\"\"}", zeros 16, .ok (.l [.s b!"text"])⟩,
    /- 2312 -/ ⟨b!"{}", zeros 16, .ok (.l [.s []])⟩,
    /- 2313 -/ ⟨b!"null", zeros 16, .ok (.l [.s []])⟩,
    /- 2315 -/ ⟨b!"{\"string\":\"\"}", zeros 16, .err 10 (.unexpectedValue)⟩,
    /- 2317 -/ ⟨b!"{\"string\":\" \\\"\\\"\"}", zeros 16, .err 10 (.unexpectedValue)⟩,
    /- 2319 -/ ⟨b!"{\"string\":\"\\\"\\\" \"}", zeros 16, .err 10 (.unexpectedValue)⟩,
    /- 2321 -/ ⟨b!"{\"string\":\"\\\"first\\\"\\\"second\\\"\"}", zeros 16, .err 10 (.unexpectedValue)⟩,
    /- 2323 -/ ⟨b!"{\"string\":\"\\\"okay\\\"\\n\"}", zeros 16, .err 10 (.unexpectedValue)⟩,
    /- 2325 -/ ⟨b!"{\"string\":\"\\\"okay\\\"abc\"}", zeros 16, .err 10 (.unexpectedValue)⟩,
    /- 2327 -/ ⟨b!"{\"string\":\"\\\"ok\\\"\\\"ay\\\"\"}", zeros 16, .err 10 (.unexpectedValue)⟩,
    /- 2330 -/ ⟨b!"1", zeros 16, .err 0 (.unexpectedValue)⟩,
    /- 2331 -/ ⟨b!"[]", zeros 16, .err 0 (.unexpectedValue)⟩,
    /- 2332 -/ ⟨b!"\"text\"", zeros 16, .err 0 (.unexpectedValue)⟩] = true := by decide +kernel

/- TestDecodeStringTagFloat64, jscandec_test.go:2546 -/
example : session 71 ⟨false, false, false⟩ [
    /- 2547 -/ ⟨b!"{}", zeros 8, .ok (.l [.f 0])⟩,
    /- 2548 -/ ⟨b!"null", zeros 8, .ok (.l [.f 0])⟩,
    /- 2549 -/ ⟨b!"{\"float64\":\"0\"}", zeros 8, .ok (.l [.f 0])⟩,
    /- 2550 -/ ⟨b!"{\"float64\":\"123\"}", zeros 8, .ok (.l [.f 4638355772470722560])⟩,
    /- 2551 -/ ⟨b!"{\"float64\":\"1.000000003\"}", zeros 8, .ok (.l [.f 4607182418813528207])⟩,
    /- 2553 -/ ⟨b!"{\"float64\":\"9007199254740991\"}", zeros 8, .ok (.l [.f 4845873199050653695])⟩,
    /- 2555 -/ ⟨b!"{\"float64\":\"-9007199254740991\"}", zeros 8, .ok (.l [.f 14069245235905429503])⟩,
    /- 2557 -/ ⟨b!"{\"float64\":\"3.141592653589793238462643383279502884197\"}", zeros 8, .ok (.l [.f 4614256656552045848])⟩,
    /- 2560 -/ ⟨b!"{\"float64\":\"-3.141592653589793238462643383279502884197\"}", zeros 8, .ok (.l [.f 13837628693406821656])⟩,
    /- 2563 -/ ⟨b!"{\"float64\":\"3.4028235e38\"}", zeros 8, .ok (.l [.f 5183643170655547384])⟩,
    /- 2565 -/ ⟨b!"{\"float64\":\"1.7976931348623157e308\"}", zeros 8, .ok (.l [.f 9218868437227405311])⟩,
    /- 2567 -/ ⟨b!"{\"float64\":\"1.7976931348623157e-308\"}", zeros 8, .ok (.l [.f 3638571412512157])⟩,
    /- 2569 -/ ⟨b!"{\"float64\":\"1.4e-45\"}", zeros 8, .ok (.l [.f 3936137728114922858])⟩,
    /- 2571 -/ ⟨b!"{\"float64\":\"-1.7976931348623157e308\"}", zeros 8, .ok (.l [.f 18442240474082181119])⟩,
    /- 2573 -/ ⟨b!"{\"float64\":\"3.4e38\"}", zeros 8, .ok (.l [.f 5183635696913276845])⟩,
    /- 2575 -/ ⟨b!"{\"float64\":\"-3.4e38\"}", zeros 8, .ok (.l [.f 14407007733768052653])⟩,
    /- 2577 -/ ⟨b!"{\"float64\":\"6.022e23\"}", zeros 8, .ok (.l [.f 4962933069378480659])⟩,
    /- 2580 -/ ⟨b!"{\"float64\":\"1e309\"}", zeros 8, .err 11 (.parse 2)⟩] = true := by decide +kernel

/- TestDecodePointerString, jscandec_test.go:2627 -/
example : session 75 ⟨false, false, false⟩ [
    /- 2628 -/ ⟨b!"\"text\"", zeros 8, .ok (.p (.s b!"text"))⟩,
    /- 2629 -/ ⟨b!"\"\"", zeros 8, .ok (.p (.s []))⟩,
    /- 2630 -/ ⟨b!"null", zeros 8, .ok (.nil)⟩,
    /- 2632 -/ ⟨b!"1.1", zeros 8, .err 0 (.unexpectedValue)⟩,
    /- 2633 -/ ⟨b!"[]", zeros 8, .err 0 (.unexpectedValue)⟩,
    /- 2634 -/ ⟨b!"{}", zeros 8, .err 0 (.unexpectedValue)⟩,
    /- 2635 -/ ⟨b!"42", zeros 8, .err 0 (.unexpectedValue)⟩,
    /- 2636 -/ ⟨b!"false", zeros 8, .err 0 (.unexpectedValue)⟩,
    /- 2637 -/ ⟨b!"true", zeros 8, .err 0 (.unexpectedValue)⟩] = true := by decide +kernel

/- TestDecodePointerSlice, jscandec_test.go:2641 -/
example : session 76 ⟨false, false, false⟩ [
    /- 2642 -/ ⟨b!"[1]", zeros 8, .ok (.p (.l [.i (1)]))⟩,
    /- 2643 -/ ⟨b!"[]", zeros 8, .ok (.p (.l []))⟩,
    /- 2644 -/ ⟨b!"null", zeros 8, .ok (.nil)⟩,
    /- 2646 -/ ⟨b!"1.1", zeros 8, .err 0 (.unexpectedValue)⟩,
    /- 2647 -/ ⟨b!"{}", zeros 8, .err 0 (.unexpectedValue)⟩,
    /- 2648 -/ ⟨b!"42", zeros 8, .err 0 (.unexpectedValue)⟩,
    /- 2649 -/ ⟨b!"\"text\"", zeros 8, .err 0 (.unexpectedValue)⟩,
    /- 2650 -/ ⟨b!"false", zeros 8, .err 0 (.unexpectedValue)⟩,
    /- 2651 -/ ⟨b!"true", zeros 8, .err 0 (.unexpectedValue)⟩] = true := by decide +kernel

/- TestDecodeMapInt8ToString, jscandec_test.go:2831 -/
example : session 86 ⟨false, false, false⟩ [
    /- 2832 -/ ⟨b!"{}", zeros 8, .ok (.m [])⟩,
    /- 2833 -/ ⟨b!"null", zeros 8, .ok (.nil)⟩,
    /- 2834 -/ ⟨b!"{\"0\":0, \"-128\":-128, \"127\":127}", zeros 8, .ok (.m [(.i (0), .i (0)), (.i (-128), .i (-128)), (.i (127), .i (127))])⟩,
    /- 2837 -/ ⟨b!"{\"1\": 42}", seg 8 (.map [(.int (1), seg 8 (.int (10))), (.int (2), seg 8 (.int (20)))]), .ok (.m [(.i (1), .i (42)), (.i (2), .i (20))])⟩,
    /- 2841 -/ ⟨b!"{\"2\": 42}", seg 8 (.map [(.int (1), seg 8 (.int (10))), (.int (2), seg 8 (.int (20)))]), .ok (.m [(.i (1), .i (10)), (.i (2), .i (42))])⟩,
    /- 2845 -/ ⟨b!"{\"2\": 42, \"1\": 42, \"3\": 42}", seg 8 (.map [(.int (1), seg 8 (.int (10))), (.int (2), seg 8 (.int (20)))]), .ok (.m [(.i (1), .i (42)), (.i (2), .i (42)), (.i (3), .i (42))])⟩,
    /- 2850 -/ ⟨b!"{\"128\":0}", zeros 8, .err 1 (.unexpectedValue)⟩,
    /- 2851 -/ ⟨b!"{\"-129\":0}", zeros 8, .err 1 (.unexpectedValue)⟩,
    /- 2852 -/ ⟨b!"{\"3.14\":0}", zeros 8, .err 1 (.unexpectedValue)⟩,
    /- 2853 -/ ⟨b!"{\"3e2\":0}", zeros 8, .err 1 (.unexpectedValue)⟩,
    /- 2854 -/ ⟨b!"1", zeros 8, .err 0 (.unexpectedValue)⟩,
    /- 2855 -/ ⟨b!"\"text\"", zeros 8, .err 0 (.unexpectedValue)⟩,
    /- 2856 -/ ⟨b!"[]", zeros 8, .err 0 (.unexpectedValue)⟩] = true := by decide +kernel

/- TestDecodeMapUint64ToString, jscandec_test.go:3085 -/
example : session 94 ⟨false, false, false⟩ [
    /- 3086 -/ ⟨b!"{}", zeros 8, .ok (.m [])⟩,
    /- 3087 -/ ⟨b!"null", zeros 8, .ok (.nil)⟩,
    /- 3088 -/ ⟨b!"{\"0\":0, \"42\":42, \"18446744073709551615\":1}", zeros 8, .ok (.m [(.i (0), .i (0)), (.i (42), .i (42)), (.i (18446744073709551615), .i (1))])⟩,
    /- 3091 -/ ⟨b!"{\"1\": 42}", seg 8 (.map [(.int (1), seg 8 (.int (10))), (.int (2), seg 8 (.int (20)))]), .ok (.m [(.i (1), .i (42)), (.i (2), .i (20))])⟩,
    /- 3095 -/ ⟨b!"{\"2\": 42}", seg 8 (.map [(.int (1), seg 8 (.int (10))), (.int (2), seg 8 (.int (20)))]), .ok (.m [(.i (1), .i (10)), (.i (2), .i (42))])⟩,
    /- 3099 -/ ⟨b!"{\"2\": 42, \"1\": 42, \"3\": 42}", seg 8 (.map [(.int (1), seg 8 (.int (10))), (.int (2), seg 8 (.int (20)))]), .ok (.m [(.i (1), .i (42)), (.i (2), .i (42)), (.i (3), .i (42))])⟩,
    /- 3104 -/ ⟨b!"{\"18446744073709551616\":0}", zeros 8, .err 1 (.unexpectedValue)⟩,
    /- 3106 -/ ⟨b!"{\"-1\":0}", zeros 8, .err 1 (.unexpectedValue)⟩,
    /- 3108 -/ ⟨b!"{\"3.14\":0}", zeros 8, .err 1 (.unexpectedValue)⟩,
    /- 3110 -/ ⟨b!"{\"3e2\":0}", zeros 8, .err 1 (.unexpectedValue)⟩,
    /- 3112 -/ ⟨b!"1", zeros 8, .err 0 (.unexpectedValue)⟩,
    /- 3114 -/ ⟨b!"\"text\"", zeros 8, .err 0 (.unexpectedValue)⟩,
    /- 3116 -/ ⟨b!"[]", zeros 8, .err 0 (.unexpectedValue)⟩] = true := by decide +kernel

/- TestDecodeUnmarshalerFields, jscandec_test.go:3381 -/
example : session 105 ⟨false, false, false⟩ [
    /- 3382 -/ ⟨b!"{\"string\":\"a\",\"json\":42,\"text\":\"foo\",\"tail\":[1,2]}", zeros 72, .ok (.l [.s b!"a", .s b!"42", .s b!"foo", .l [.i (1), .i (2)]])⟩,
    /- 3390 -/ ⟨[123, 10, 9, 9, 34, 115, 116, 114, 105, 110, 103, 34, 58, 34, 98, 34, 44, 10, 9, 9, 34, 106, 115, 111, 110, 34, 58, 34, 92, 34, 116, 101, 120, 116, 92, 34, 34, 44, 10, 9, 9, 34, 116, 101, 120, 116, 34, 58, 34, 92, 34, 116, 101, 120, 116, 92, 34, 34, 44, 10, 9, 9, 34, 116, 97, 105, 108, 34, 58, 91, 49, 44, 50, 93, 125], zeros 72, .ok (.l [.s b!"b", .s b!"\"\\\"text\\\"\"", .s b!"\"text\"", .l [.i (1), .i (2)]])⟩,
    /- 3401 -/ ⟨b!"{\"string\":\"c\",\"json\":[1,2, 3],\"text\":\"\",\"tail\":[1,2]}", zeros 72, .ok (.l [.s b!"c", .s b!"[1,2, 3]", .s [], .l [.i (1), .i (2)]])⟩,
    /- 3408 -/ ⟨b!"{\"string\":\"d\",\"json\":{\"foo\":[\"bar\", null]},\"tail\":[1,2]}", zeros 72, .ok (.l [.s b!"d", .s b!"{\"foo\":[\"bar\", null]}", .s [], .l [.i (1), .i (2)]])⟩] = true := by decide +kernel

/- TestDisableFieldNameUnescapingNoTag, jscandec_test.go:3736 -/
example : session 114 ⟨false, true, false⟩ [
    /- 3740 -/ ⟨b!"{\"ID\":\"ok\"}", zeros 16, .ok (.l [.s b!"ok"])⟩,
    /- 3741 -/ ⟨b!"{\"id\":\"ok\"}", zeros 16, .ok (.l [.s b!"ok"])⟩,
    /- 3742 -/ ⟨b!"{\"\\u0049\\u0044\":\"not ok\"}", zeros 16, .ok (.l [.s []])⟩,
    /- 3749 -/ ⟨b!"{\"\\u0069\\u0064\":\"not ok\"}", zeros 16, .ok (.l [.s []])⟩] = true := by decide +kernel

end Verif.Conform
