import Verif.Conform.Base
/-!
# The types and numbers of the tests of the repository (generated by tools/conformance)
-/
namespace Verif.Conform
open Verif.Model Verif.Spec

/-- The numbers in the test inputs with the bits of the nearest `float32` and `float64` (`none`: out of range). -/
def numTbl : List (Bytes × Option Nat × Option Nat) := [
  ([45, 49], some 3212836864, some 13830554455654793216),
  ([45, 49, 46, 55, 57, 55, 54, 57, 51, 49, 51, 52, 56, 54, 50, 51, 49, 53, 55, 101, 51, 48, 56], none, some 18442240474082181119),
  ([45, 49, 50, 51, 52, 53, 54, 55, 56], some 3409731918, some 13936261682864062464),
  ([45, 49, 50, 51, 52, 53, 54, 55, 56, 57], some 3437984163, some 13951429491201933312),
  ([45, 49, 50, 56], some 3271557120, some 13862079653046386688),
  ([45, 49, 50, 57], some 3271622656, some 13862114837418475520),
  ([45, 49, 54, 55, 55, 55, 50, 49, 53], some 3414163455, some 13938640846174814208),
  ([45, 50, 49, 52, 55, 52, 56, 51, 54, 52, 56], some 3472883712, some 13970166044103278592),
  ([45, 50, 49, 52, 55, 52, 56, 51, 54, 52, 57], some 3472883712, some 13970166044105375744),
  ([45, 50, 51], some 3250061312, some 13850539179001249792),
  ([45, 51, 46, 49, 52, 49, 53, 57, 50, 54, 53, 51, 53, 56, 57, 55, 57, 51, 50, 51, 56, 52, 54, 50, 54, 52, 51, 51, 56, 51, 50, 55, 57, 53, 48, 50, 56, 56, 52, 49, 57, 55], some 3226013659, some 13837628693406821656),
  ([45, 51, 46, 49, 52, 49, 53, 57, 50, 55], some 3226013659, some 13837628693511328151),
  ([45, 51, 46, 52, 101, 51, 56], some 4286564766, some 14407007733768052653),
  ([45, 51, 50, 55, 54, 56], some 3338665984, some 13898108450065350656),
  ([45, 51, 50, 55, 54, 57], some 3338666240, some 13898108587504304128),
  ([45, 57, 48, 48, 55, 49, 57, 57, 50, 53, 52, 55, 52, 48, 57, 57, 49], some 3657433088, some 14069245235905429503),
  ([45, 57, 50, 50, 51, 51, 55, 50, 48, 51, 54, 56, 53, 52, 55, 55, 53, 56, 48, 56], some 3741319168, some 14114281232179134464),
  ([45, 57, 50, 50, 51, 51, 55, 50, 48, 51, 54, 56, 53, 52, 55, 55, 53, 56, 48, 57], some 3741319168, some 14114281232179134464),
  ([48], some 0, some 0),
  ([48, 46, 49], some 1036831949, some 4591870180066957722),
  ([48, 48, 52, 50], some 1109917696, some 4631107791820423168),
  ([48, 48, 52, 52], some 1110441984, some 4631389266797133824),
  ([48, 48, 52, 57], some 1111752704, some 4632092954238910464),
  ([48, 48, 54, 52], some 1115684864, some 4634204016564240384),
  ([48, 48, 54, 57], some 1116340224, some 4634555860285128704),
  ([48, 52, 51, 54], some 1138360320, some 4646377809306976256),
  ([48, 52, 52], some 1110441984, some 4631389266797133824),
  ([48, 52, 52, 52], some 1138622464, some 4646518546795331584),
  ([48, 52, 52, 56], some 1138753536, some 4646588915539509248),
  ([49], some 1065353216, some 4607182418800017408),
  ([49, 46, 48], some 1065353216, some 4607182418800017408),
  ([49, 46, 48, 48, 48, 48, 48, 48, 48, 48, 51], some 1065353216, some 4607182418813528207),
  ([49, 46, 49], some 1066192077, some 4607632778762754458),
  ([49, 46, 50], some 1067030938, some 4608083138725491507),
  ([49, 46, 52, 101, 45, 52, 53], some 1, some 3936137728114922858),
  ([49, 46, 55, 57, 55, 54, 57, 51, 49, 51, 52, 56, 54, 50, 51, 49, 53, 55, 101, 45, 51, 48, 56], some 0, some 3638571412512157),
  ([49, 46, 55, 57, 55, 54, 57, 51, 49, 51, 52, 56, 54, 50, 51, 49, 53, 55, 101, 51, 48, 56], none, some 9218868437227405311),
  ([49, 48], some 1092616192, some 4621819117588971520),
  ([49, 48, 50], some 1120665600, some 4636878028842991616),
  ([49, 49], some 1093664768, some 4622382067542392832),
  ([49, 49, 49, 49], some 1149952000, some 4652601045120188416),
  ([49, 49, 49, 49, 49, 49], some 1205404544, some 4682371902990188544),
  ([49, 49, 49, 49, 49, 49, 49, 49, 49, 49, 49], some 1344639366, some 4757123029098037248),
  ([49, 49, 49, 49, 49, 49, 49, 49, 49, 49, 49, 49, 49, 49, 49, 49, 49, 49, 49, 49, 49], some 1623244607, some 4906698078606877426),
  ([49, 50], some 1094713344, some 4622945017495814144),
  ([49, 50, 51], some 1123418112, some 4638355772470722560),
  ([49, 50, 51, 52], some 1150959616, some 4653142004841054208),
  ([49, 50, 51, 52, 53], some 1178657792, some 4668012349850910720),
  ([49, 50, 51, 52, 53, 54, 55, 56, 57], some 1290500515, some 4728057454347157504),
  ([49, 50, 55], some 1123942400, some 4638637247447433216),
  ([49, 50, 56], some 1124073472, some 4638707616191610880),
  ([49, 51], some 1095761920, some 4623507967449235456),
  ([49, 52], some 1096810496, some 4624070917402656768),
  ([49, 53], some 1097859072, some 4624633867356078080),
  ([49, 54], some 1098907648, some 4625196817309499392),
  ([49, 54, 55, 55, 55, 50, 49, 53], some 1266679807, some 4715268809320038400),
  ([49, 55], some 1099431936, some 4625478292286210048),
  ([49, 56, 52, 52, 54, 55, 52, 52, 48, 55, 51, 55, 48, 57, 53, 53, 49, 54, 49, 53], some 1602224128, some 4895412794951729152),
  ([49, 56, 52, 52, 54, 55, 52, 52, 48, 55, 51, 55, 48, 57, 53, 53, 49, 54, 49, 54], some 1602224128, some 4895412794951729152),
  ([49, 57, 48, 48, 48, 48, 48, 48, 48, 48, 48, 48, 48, 48, 48, 48, 48, 48, 48, 48], some 1602475720, some 4895547867199358656),
  ([49, 101, 49, 48], some 1343554297, some 4756540486875873280),
  ([49, 101, 50], some 1120403456, some 4636737291354636288),
  ([49, 101, 51, 48, 57], none, none),
  ([50], some 1073741824, some 4611686018427387904),
  ([50, 46, 50], some 1074580685, some 4612136378390124954),
  ([50, 46, 53], some 1075838976, some 4612811918334230528),
  ([50, 49, 52, 55, 52, 56, 51, 54, 52, 55], some 1325400064, some 4746794007244308480),
  ([50, 49, 52, 55, 52, 56, 51, 54, 52, 56], some 1325400064, some 4746794007248502784),
  ([50, 51], some 1102577664, some 4627167142146473984),
  ([50, 53, 53], some 1132396544, some 4643176031446892544),
  ([50, 53, 54], some 1132462080, some 4643211215818981376),
  ([51], some 1077936128, some 4613937818241073152),
  ([51, 46, 49, 52], some 1078523331, some 4614253070214989087),
  ([51, 46, 49, 52, 49, 53], some 1078529622, some 4614256447914709615),
  ([51, 46, 49, 52, 49, 53, 57, 50, 54, 53, 51, 53, 56, 57, 55, 57, 51, 50, 51, 56, 52, 54, 50, 54, 52, 51, 51, 56, 51, 50, 55, 57, 53, 48, 50, 56, 56, 52, 49, 57, 55], some 1078530011, some 4614256656552045848),
  ([51, 46, 49, 52, 49, 53, 57, 50, 55], some 1078530011, some 4614256656656552343),
  ([51, 46, 51], some 1079194419, some 4614613358185178726),
  ([51, 46, 52], some 1079613850, some 4614838538166547251),
  ([51, 46, 52, 48, 50, 56, 50, 51, 53, 101, 51, 56], some 2139095039, some 5183643170655547384),
  ([51, 46, 52, 101, 51, 56], some 2139081118, some 5183635696913276845),
  ([51, 46, 53, 101, 51, 56], none, some 5183771782906367355),
  ([51, 48], some 1106247680, some 4629137466983448576),
  ([51, 48, 48], some 1133903872, some 4643985272004935680),
  ([51, 50], some 1107296256, some 4629700416936869888),
  ([51, 50, 55, 54, 55], some 1191181824, some 4674736138332667904),
  ([51, 50, 55, 54, 56], some 1191182336, some 4674736413210574848),
  ([51, 101, 50], some 1133903872, some 4643985272004935680),
  ([52], some 1082130432, some 4616189618054758400),
  ([52, 50], some 1109917696, some 4631107791820423168),
  ([52, 50, 57, 52, 57, 54, 55, 50, 57, 53], some 1333788672, some 4751297606873776128),
  ([52, 50, 57, 52, 57, 54, 55, 50, 57, 54], some 1333788672, some 4751297606875873280),
  ([52, 53, 54], some 1139015680, some 4646729653027864576),
  ([53], some 1084227584, some 4617315517961601024),
  ([53, 48, 48, 48, 48, 48, 48, 48, 48, 48], some 1335165689, some 4752036887248502784),
  ([54], some 1086324736, some 4618441417868443648),
  ([54, 46, 48, 50, 50, 101, 50, 51], some 1727990440, some 4962933069378480659),
  ([54, 52], some 1115684864, some 4634204016564240384),
  ([54, 53, 53, 51, 53], some 1199570688, some 4679239875398991872),
  ([54, 53, 53, 51, 54], some 1199570944, some 4679240012837945344),
  ([55], some 1088421888, some 4619567317775286272),
  ([55, 48, 48, 48, 48], some 1200142336, some 4679546776582094848),
  ([56], some 1090519040, some 4620693217682128896),
  ([57], some 1091567616, some 4621256167635550208),
  ([57, 48, 48, 55, 49, 57, 57, 50, 53, 52, 55, 52, 48, 57, 57, 49], some 1509949440, some 4845873199050653695),
  ([57, 50, 50, 51, 51, 55, 50, 48, 51, 54, 56, 53, 52, 55, 55, 53, 56, 48, 55], some 1593835520, some 4890909195324358656),
  ([57, 50, 50, 51, 51, 55, 50, 48, 51, 54, 56, 53, 52, 55, 55, 53, 56, 48, 56], some 1593835520, some 4890909195324358656),
  ([57, 57], some 1120272384, some 4636666922610458624)]

/-- The test types whose unmarshaler methods fail: jscandec_test.go:3490-3514. -/
def errTypes : List Nat := [106, 108]

/-- The Go types of the tests; each test function declares its own. The array length 512 of TestDecodeMapStringStruct512 is reduced to 16. -/
def types : List TypeInfo := [
  /- 0 -/ { kind := .bool, size := 1 },
  /- 1 -/ { kind := .interface, size := 16 },
  /- 2 -/ { kind := .int .uint, size := 8 },
  /- 3 -/ { kind := .int .int, size := 8 },
  /- 4 -/ { kind := .float .f32, size := 4 },
  /- 5 -/ { kind := .float .f64, size := 8 },
  /- 6 -/ { kind := .int .u64, size := 8 },
  /- 7 -/ { kind := .int .i64, size := 8 },
  /- 8 -/ { kind := .int .u32, size := 4 },
  /- 9 -/ { kind := .int .i32, size := 4 },
  /- 10 -/ { kind := .int .u16, size := 2 },
  /- 11 -/ { kind := .int .i16, size := 2 },
  /- 12 -/ { kind := .int .u8, size := 1 },
  /- 13 -/ { kind := .int .i8, size := 1 },
  /- 14 -/ { kind := .string, size := 16 },
  /- 15 -/ { kind := .slice, size := 24, elem := 0 },
  /- 16 -/ { kind := .slice, size := 24, elem := 14 },
  /- 17 -/ { kind := .slice, size := 24, elem := 3 },
  /- 18 -/ { kind := .slice, size := 24, elem := 13 },
  /- 19 -/ { kind := .slice, size := 24, elem := 11 },
  /- 20 -/ { kind := .slice, size := 24, elem := 9 },
  /- 21 -/ { kind := .slice, size := 24, elem := 7 },
  /- 22 -/ { kind := .slice, size := 24, elem := 2 },
  /- 23 -/ { kind := .slice, size := 24, elem := 12 },
  /- 24 -/ { kind := .slice, size := 24, elem := 10 },
  /- 25 -/ { kind := .slice, size := 24, elem := 8 },
  /- 26 -/ { kind := .slice, size := 24, elem := 6 },
  /- 27 -/ { kind := .slice, size := 24, elem := 4 },
  /- 28 -/ { kind := .slice, size := 24, elem := 5 },
  /- 29 -/ { kind := .slice, size := 24, elem := 15 },
  /- 30 -/ { kind := .slice, size := 24, elem := 17 },
  /- 31 -/ { kind := .array, size := 32, len := 2, elem := 32 },
  /- 32 -/ { kind := .array, size := 16, len := 2, elem := 3 },
  /- 33 -/ { kind := .array, size := 128, len := 4, elem := 34 },
  /- 34 -/ { kind := .array, size := 32, len := 4, elem := 3 },
  /- 35 -/ { kind := .struct, size := 0, fields := [] },
  /- 36 -/ { kind := .slice, size := 24, elem := 37 },
  /- 37 -/ { kind := .struct, size := 0, fields := [] },
  /- 38 -/ { kind := .slice, size := 24, elem := 39 },
  /- 39 -/ { kind := .struct, size := 16, fields := [⟨b!"A", [], 3, 0⟩, ⟨b!"B", [], 3, 8⟩] },
  /- 40 -/ { kind := .array, size := 24, len := 3, elem := 3 },
  /- 41 -/ { kind := .array, size := 32, len := 2, elem := 32 },
  /- 42 -/ { kind := .array, size := 0, len := 0, elem := 3 },
  /- 43 -/ { kind := .array, size := 0, len := 0, elem := 42 },
  /- 44 -/ { kind := .array, size := 0, len := 2, elem := 42 },
  /- 45 -/ { kind := .array, size := 0, len := 3, elem := 46 },
  /- 46 -/ { kind := .struct, size := 0, fields := [] },
  /- 47 -/ { kind := .struct, size := 24, fields := [⟨b!"Foo", b!"foo", 3, 0⟩, ⟨b!"Bar", b!"bar", 14, 8⟩] },
  /- 48 -/ { kind := .struct, size := 40, fields := [⟨b!"ID", [], 14, 0⟩, ⟨b!"Name", [], 14, 16⟩, ⟨b!"Recurse", [], 49, 32⟩] },
  /- 49 -/ { kind := .pointer, size := 8, elem := 48 },
  /- 50 -/ { kind := .struct, size := 56, fields := [⟨b!"ID", [], 14, 0⟩, ⟨b!"Name", [], 14, 16⟩, ⟨b!"Recurse", [], 51, 32⟩] },
  /- 51 -/ { kind := .slice, size := 24, elem := 50 },
  /- 52 -/ { kind := .struct, size := 40, fields := [⟨b!"ID", [], 14, 0⟩, ⟨b!"Name", [], 14, 16⟩, ⟨b!"Recurse", [], 53, 32⟩] },
  /- 53 -/ { kind := .map, size := 8, key := 14, elem := 52 },
  /- 54 -/ { kind := .struct, size := 24, fields := [⟨b!"Foo", b!"foo", 3, 0⟩, ⟨b!"Bar", b!"bar", 14, 8⟩] },
  /- 55 -/ { kind := .struct, size := 48, fields := [⟨b!"Any", [], 1, 0⟩, ⟨b!"Map", [], 56, 16⟩, ⟨b!"Slice", [], 57, 24⟩] },
  /- 56 -/ { kind := .map, size := 8, key := 14, elem := 1 },
  /- 57 -/ { kind := .slice, size := 24, elem := 1 },
  /- 58 -/ { kind := .struct, size := 1, fields := [⟨b!"Bool", b!",string", 0, 0⟩] },
  /- 59 -/ { kind := .struct, size := 16, fields := [⟨b!"String", b!",string", 14, 0⟩] },
  /- 60 -/ { kind := .struct, size := 8, fields := [⟨b!"Int", b!",string", 3, 0⟩] },
  /- 61 -/ { kind := .struct, size := 1, fields := [⟨b!"Int8", b!",string", 13, 0⟩] },
  /- 62 -/ { kind := .struct, size := 2, fields := [⟨b!"Int16", b!",string", 11, 0⟩] },
  /- 63 -/ { kind := .struct, size := 4, fields := [⟨b!"Int32", b!",string", 9, 0⟩] },
  /- 64 -/ { kind := .struct, size := 8, fields := [⟨b!"Int64", b!",string", 7, 0⟩] },
  /- 65 -/ { kind := .struct, size := 8, fields := [⟨b!"Uint", b!",string", 2, 0⟩] },
  /- 66 -/ { kind := .struct, size := 1, fields := [⟨b!"Uint8", b!",string", 12, 0⟩] },
  /- 67 -/ { kind := .struct, size := 2, fields := [⟨b!"Uint16", b!",string", 10, 0⟩] },
  /- 68 -/ { kind := .struct, size := 4, fields := [⟨b!"Uint32", b!",string", 8, 0⟩] },
  /- 69 -/ { kind := .struct, size := 8, fields := [⟨b!"Uint64", b!",string", 6, 0⟩] },
  /- 70 -/ { kind := .struct, size := 4, fields := [⟨b!"Float32", b!",string", 4, 0⟩] },
  /- 71 -/ { kind := .struct, size := 8, fields := [⟨b!"Float64", b!",string", 5, 0⟩] },
  /- 72 -/ { kind := .pointer, size := 8, elem := 3 },
  /- 73 -/ { kind := .pointer, size := 8, elem := 0 },
  /- 74 -/ { kind := .pointer, size := 8, elem := 5 },
  /- 75 -/ { kind := .pointer, size := 8, elem := 14 },
  /- 76 -/ { kind := .pointer, size := 8, elem := 17 },
  /- 77 -/ { kind := .pointer, size := 8, elem := 78 },
  /- 78 -/ { kind := .struct, size := 32, fields := [⟨b!"Foo", b!"foo", 14, 0⟩, ⟨b!"Bar", b!"bar", 1, 16⟩] },
  /- 79 -/ { kind := .pointer, size := 8, elem := 1 },
  /- 80 -/ { kind := .pointer, size := 8, elem := 81 },
  /- 81 -/ { kind := .pointer, size := 8, elem := 72 },
  /- 82 -/ { kind := .slice, size := 24, elem := 83 },
  /- 83 -/ { kind := .struct, size := 24, fields := [⟨b!"Foo", b!"foo", 3, 0⟩, ⟨b!"Bar", b!"bar", 14, 8⟩] },
  /- 84 -/ { kind := .map, size := 8, key := 14, elem := 14 },
  /- 85 -/ { kind := .map, size := 8, key := 3, elem := 3 },
  /- 86 -/ { kind := .map, size := 8, key := 13, elem := 3 },
  /- 87 -/ { kind := .map, size := 8, key := 11, elem := 3 },
  /- 88 -/ { kind := .map, size := 8, key := 9, elem := 3 },
  /- 89 -/ { kind := .map, size := 8, key := 7, elem := 3 },
  /- 90 -/ { kind := .map, size := 8, key := 2, elem := 3 },
  /- 91 -/ { kind := .map, size := 8, key := 12, elem := 3 },
  /- 92 -/ { kind := .map, size := 8, key := 10, elem := 3 },
  /- 93 -/ { kind := .map, size := 8, key := 8, elem := 3 },
  /- 94 -/ { kind := .map, size := 8, key := 6, elem := 3 },
  /- 95 -/ { kind := .map, size := 8, key := 14, elem := 96 },
  /- 96 -/ { kind := .map, size := 8, key := 14, elem := 14 },
  /- 97 -/ { kind := .map, size := 8, key := 14, elem := 98 },
  /- 98 -/ { kind := .struct, size := 24, fields := [⟨b!"Name", b!"name", 14, 0⟩, ⟨b!"ID", b!"id", 3, 16⟩] },
  /- 99 -/ { kind := .map, size := 8, key := 14, elem := 100 },
  /- 100 -/ { kind := .struct, size := 16, fields := [⟨b!"Data", [], 101, 0⟩] },
  /- 101 -/ { kind := .array, size := 16, len := 16, elem := 12 },
  /- 102 -/ { kind := .struct, size := 16, fields := [⟨b!"Value", [], 14, 0⟩], implJSON := true },
  /- 103 -/ { kind := .struct, size := 16, fields := [⟨b!"Value", [], 14, 0⟩], implText := true },
  /- 104 -/ { kind := .map, size := 8, key := 103, elem := 3 },
  /- 105 -/ { kind := .struct, size := 72, fields := [⟨b!"String", b!"string", 14, 0⟩, ⟨b!"JSON", b!"json", 102, 16⟩, ⟨b!"Text", b!"text", 103, 32⟩, ⟨b!"Tail", b!"tail", 17, 48⟩] },
  /- 106 -/ { kind := .struct, size := 16, fields := [⟨b!"Value", [], 14, 0⟩], implJSON := true },
  /- 107 -/ { kind := .map, size := 8, key := 108, elem := 109 },
  /- 108 -/ { kind := .struct, size := 16, fields := [⟨b!"Value", [], 14, 0⟩], implText := true },
  /- 109 -/ { kind := .struct, size := 0, fields := [] },
  /- 110 -/ { kind := .struct, size := 16, fields := [⟨b!"Unmarshaler", [], 108, 0⟩] },
  /- 111 -/ { kind := .string, size := 16, isNumber := true },
  /- 112 -/ { kind := .struct, size := 16, fields := [⟨b!"ID", b!"id", 14, 0⟩] },
  /- 113 -/ { kind := .struct, size := 16, fields := [⟨b!"ID", b!"id", 14, 0⟩] },
  /- 114 -/ { kind := .struct, size := 16, fields := [⟨b!"ID", [], 14, 0⟩] },
  /- 115 -/ { kind := .struct, size := 16, fields := [⟨b!"ID", b!"id", 14, 0⟩] },
  /- 116 -/ { kind := .struct, size := 16, fields := [⟨b!"ID", [], 14, 0⟩] }]

/-- The program under test. -/
def testEnv : TypeEnv := fun t => types.getD t { kind := .other }

/-- The 64-bit platform of the tests. The unmarshaler methods store their input (jscandec_test.go:3482-3512). -/
def testX (str : Bool) : Ext where
  is64 := true
  strInput := str
  parseFloat32 := fun s => numOf numTbl s fun e => e.1
  parseFloat64 := fun s => numOf numTbl s fun e => e.2
  f32OfInt := fun i => numOfInt numTbl i fun e => e.1
  f64OfInt := fun i => numOfInt numTbl i fun e => e.2
  tokInt32 := demoInt
  tokInt64 := demoInt
  tokFloat64 := fun s => numOf numTbl s fun e => e.2
  equalFold := demoX.equalFold
  unmarshalJSON := fun t old s => if errTypes.contains t then (old, some 7) else (seg 16 (.user s), none)
  unmarshalText := fun t old s => if errTypes.contains t then (old, some 7) else (seg 16 (.user s), none)
  unmarshalKey := fun t s => if errTypes.contains t then .error 7 else .ok s

/-- A test setup (jscandec_test.go:41-60): one decoder, used for all tests in order, with `[]byte` and with `string` input. -/
def session (T : TypeId) (o : Options) (ts : List Test) : Bool :=
  match newDecoder testEnv 8 (some defaultInitOptions) 20 (some T) with
  | .ok d => checkAll testEnv (testX false) T o d ts && checkAll testEnv (testX true) T o d ts
  | _ => false

end Verif.Conform
