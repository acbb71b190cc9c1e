import Verif.Model.Base

/-!
# The legacy translation tables shipped with detox — `/repo/table/legacy/*.tbl`

Generated, byte for byte, from the files. A line is given by its length and its bytes, in hexadecimal, as one number; the newline at its end
is left out. Parts of a file are lists of at most 100 lines; `start` and `end` lines are parts of their own.
-/

set_option autoImplicit false

namespace Detox

/-- The `n` bytes of a number, the most significant one first. -/
def bytesOfNumber : Nat → Nat → List Nat
  | 0, _ => []
  | n + 1, x => x / 256 ^ n % 256 :: bytesOfNumber n x

/-- A line as it is given below. -/
def packedLine (l : Nat × Nat) : List Nat := bytesOfNumber l.1 l.2

/-- The file with these lines. -/
def packedFile (ls : List (Nat × Nat)) : Bytes := (ls.map fun l => (packedLine l).map UInt8.ofNat ++ [0x0A]).flatten

/-- Lines 1-23 of table/legacy/cp1252.tbl. -/
def legacy_cp1252_0 : List (Nat × Nat) := [
  (41, 0x2320546869732066696c652069732070617274206f6620746865204465746f78207061636b6167652e),
  (1, 0x23),
  (53, 0x2320436f707972696768742028632920446f756720486172706c65203c6465746f782e64686172706c6540676d61696c2e636f6d3e),
  (1, 0x23),
  (73, 0x2320466f72207468652066756c6c20636f7079726967687420616e64206c6963656e736520696e666f726d6174696f6e2c20706c65617365207669657720746865204c4943454e5345),
  (50, 0x232066696c652074686174207761732064697374726962757465642077697468207468697320736f7572636520636f64652e),
  (0, 0x0),
  (1, 0x23),
  (78, 0x232054686973207461626c6520636f6e7461696e7320736f6d652072756c657320666f72207472616e736c697465726174696e672057696e646f772043502d313235322063686172616374657273),
  (13, 0x2320696e746f2041534349492e),
  (1, 0x23),
  (12, 0x23205468616e6b7320746f3a),
  (46, 0x23202d2068747470733a2f2f656e2e77696b6970656469612e6f72672f77696b692f57696e646f77732d31323532),
  (1, 0x23),
  (0, 0x0),
  (1, 0x23),
  (70, 0x23202264656661756c742220697320636f6d6d656e746564206f757420626563617573652074686973206973206e6f7420696e74656e64656420746f2062652072756e20696e),
  (77, 0x232069736f6c6174696f6e2e202049742073686f756c6420626520612070726566696c74657220696e2066726f6e74206f66207468652049534f20383835392d312066696c7465722c206f722c),
  (36, 0x2320696e207665727920726172652063617365732c20746865205554462d38206f6e652e),
  (1, 0x23),
  (0, 0x0),
  (9, 0x232064656661756c74),
  (0, 0x0)]

/-- Lines 24-24 of table/legacy/cp1252.tbl. -/
def legacy_cp1252_1 : List (Nat × Nat) := [
  (5, 0x7374617274)]

/-- Lines 25-56 of table/legacy/cp1252.tbl. -/
def legacy_cp1252_2 : List (Nat × Nat) := [
  (0, 0x0),
  (1, 0x23),
  (37, 0x232043502d31323532205472616e736c6174696f6e202d203078303038302d307830303946),
  (1, 0x23),
  (0, 0x0),
  (23, 0x30783030383009094555520923204555524f205349474e),
  (41, 0x307830303832090922272209232053494e474c45204c4f572d392051554f544154494f4e204d41524b),
  (42, 0x3078303038330909660923204c4154494e20534d414c4c204c45545445522046205749544820484f4f4b),
  (41, 0x3078303038340909272227092320444f55424c45204c4f572d392051554f544154494f4e204d41524b),
  (33, 0x30783030383509092e2e2e092320484f52495a4f4e54414c20454c4c4950534953),
  (18, 0x30783030383609092b092320444147474552),
  (26, 0x30783030383709092b2b092320444f55424c4520444147474552),
  (45, 0x30783030383809095e0923204d4f444946494552204c45545445522043495243554d464c455820414343454e54),
  (26, 0x307830303839090925092320504552204d494c4c45205349474e),
  (45, 0x3078303038410909530923204c4154494e204341504954414c204c455454455220532057495448204341524f4e),
  (38, 0x30783030384309094f450923204c4154494e204341504954414c204c49474154555245204f45),
  (45, 0x30783030384509095a0923204c4154494e204341504954414c204c4554544552205a2057495448204341524f4e),
  (0, 0x0),
  (40, 0x30783030393109092227220923204c4546542053494e474c452051554f544154494f4e204d41524b),
  (41, 0x307830303932090922272209232052494748542053494e474c452051554f544154494f4e204d41524b),
  (40, 0x30783030393309092722270923204c45465420444f55424c452051554f544154494f4e204d41524b),
  (41, 0x3078303039340909272227092320524947485420444f55424c452051554f544154494f4e204d41524b),
  (18, 0x30783030393509092a09232042554c4c4554),
  (19, 0x30783030393609092d092320454e2044415348),
  (19, 0x30783030393709092d092320454d2044415348),
  (23, 0x30783030393809097e092320534d414c4c2054494c4445),
  (30, 0x30783030393909095f746d5f0923205452414445204d41524b205349474e),
  (43, 0x3078303039410909730923204c4154494e20534d414c4c204c455454455220532057495448204341524f4e),
  (36, 0x30783030394309096f650923204c4154494e20534d414c4c204c49474154555245204f45),
  (43, 0x30783030394509097a0923204c4154494e20534d414c4c204c4554544552205a2057495448204341524f4e),
  (49, 0x3078303039460909590923204c4154494e204341504954414c204c45545445522059205749544820444941455245534953),
  (0, 0x0)]

/-- Lines 57-57 of table/legacy/cp1252.tbl. -/
def legacy_cp1252_3 : List (Nat × Nat) := [
  (3, 0x656e64)]

/-- The parts between the first `start` and the first `end` of table/legacy/cp1252.tbl, lines 25-56. -/
def legacy_cp1252_body : List (List (Nat × Nat)) := [
  legacy_cp1252_2]

/-- All parts of table/legacy/cp1252.tbl, lines 1-57. -/
def legacy_cp1252_parts : List (List (Nat × Nat)) := legacy_cp1252_0 :: legacy_cp1252_1 :: (legacy_cp1252_body ++ [
  legacy_cp1252_3])

/-- The file table/legacy/cp1252.tbl, lines 1-57. -/
def legacy_cp1252 : Bytes := packedFile legacy_cp1252_parts.flatten

/-- Lines 1-18 of table/legacy/iso8859_1.tbl. -/
def legacy_iso8859_1_0 : List (Nat × Nat) := [
  (41, 0x2320546869732066696c652069732070617274206f6620746865204465746f78207061636b6167652e),
  (1, 0x23),
  (53, 0x2320436f707972696768742028632920446f756720486172706c65203c6465746f782e64686172706c6540676d61696c2e636f6d3e),
  (1, 0x23),
  (73, 0x2320466f72207468652066756c6c20636f7079726967687420616e64206c6963656e736520696e666f726d6174696f6e2c20706c65617365207669657720746865204c4943454e5345),
  (50, 0x232066696c652074686174207761732064697374726962757465642077697468207468697320736f7572636520636f64652e),
  (0, 0x0),
  (1, 0x23),
  (55, 0x23205370656369616c207468616e6b7320746f3a20687474703a2f2f7777772e626273696e632e636f6d2f69736f383835392e68746d6c),
  (1, 0x23),
  (0, 0x0),
  (1, 0x23),
  (76, 0x2320546869732066696c65207472616e736c697465726174657320757070657220382d626974206368617261637465727320656e636f64656420696e2049534f20383835392d3120696e746f),
  (76, 0x232041534349492e202049742773206d65616e7420746f20626520757365642077697468207468652069736f383835395f312066696c7465722c2077686963682073656c6563747320666f72),
  (35, 0x232063686172616374657273206265747765656e203078383020616e6420307846462e),
  (1, 0x23),
  (0, 0x0),
  (10, 0x64656661756c7409095f)]

/-- Lines 19-19 of table/legacy/iso8859_1.tbl. -/
def legacy_iso8859_1_1 : List (Nat × Nat) := [
  (5, 0x7374617274)]

/-- Lines 20-119 of table/legacy/iso8859_1.tbl. -/
def legacy_iso8859_1_2 : List (Nat × Nat) := [
  (0, 0x0),
  (1, 0x23),
  (38, 0x23204c6174696e203120537570706c656d656e74616c202d203078303038302d307830304646),
  (1, 0x23),
  (42, 0x232068747470733a2f2f756e69636f64652e6f72672f6368617274732f5044462f55303038302e706466),
  (1, 0x23),
  (0, 0x0),
  (28, 0x30783030413009092220220923204e4f2d425245414b205350414345),
  (37, 0x307830304131090921092320494e564552544544204558434c414d4154494f4e204d41524b),
  (26, 0x30783030413209095f63656e745f09232043454e54205349474e),
  (28, 0x30783030413309095f706f756e645f092320504f554e44205349474e),
  (25, 0x30783030413409092409232043555252454e4359205349474e),
  (24, 0x30783030413509095f79656e5f09232059454e205349474e),
  (27, 0x30783030413709095f73735f09232053454354494f4e205349474e),
  (23, 0x3078303041380909222022092320444941455245534953),
  (31, 0x30783030413909095f636f70795f092320434f50595249474854205349474e),
  (40, 0x30783030414109095f615f09232046454d494e494e45204f5244494e414c20494e44494341544f52),
  (55, 0x30783030414209092722270923204c4546542d504f494e54494e4720444f55424c4520414e474c452051554f544154494f4e204d41524b),
  (23, 0x30783030414409092d092320534f46542048595048454e),
  (31, 0x30783030414509095f7265675f09232052454749535445524544205349474e),
  (0, 0x0),
  (27, 0x30783030423009095f6465675f092320444547524545205349474e),
  (28, 0x30783030423209095e3209232053555045525343524950542054574f),
  (30, 0x30783030423309095e330923205355504552534352495054205448524545),
  (26, 0x3078303042340909222722092320414355544520414343454e54),
  (22, 0x3078303042350909750923204d4943524f205349474e),
  (27, 0x30783030423609095f70705f09232050494c43524f57205349474e),
  (22, 0x30783030423709092a0923204d4944444c4520444f54),
  (21, 0x3078303042380909222022092320434544494c4c41),
  (28, 0x30783030423909095e310923205355504552534352495054204f4e45),
  (41, 0x30783030424109095f6f5f0923204d415343554c494e45204f5244494e414c20494e44494341544f52),
  (56, 0x307830304242090927222709232052494748542d504f494e54494e4720444f55424c4520414e474c452051554f544154494f4e204d41524b),
  (34, 0x30783030424609093f092320494e564552544544205155455354494f4e204d41524b),
  (0, 0x0),
  (45, 0x3078303043300909410923204c4154494e204341504954414c204c455454455220412057495448204752415645),
  (45, 0x3078303043310909410923204c4154494e204341504954414c204c455454455220412057495448204143555445),
  (50, 0x3078303043320909410923204c4154494e204341504954414c204c4554544552204120574954482043495243554d464c4558),
  (45, 0x3078303043330909410923204c4154494e204341504954414c204c4554544552204120574954482054494c4445),
  (49, 0x3078303043340909410923204c4154494e204341504954414c204c45545445522041205749544820444941455245534953),
  (50, 0x3078303043350909410923204c4154494e204341504954414c204c4554544552204120574954482052494e472041424f5645),
  (36, 0x307830304336090941450923204c4154494e204341504954414c204c4554544552204145),
  (47, 0x3078303043370909430923204c4154494e204341504954414c204c45545445522043205749544820434544494c4c41),
  (45, 0x3078303043380909450923204c4154494e204341504954414c204c455454455220452057495448204752415645),
  (45, 0x3078303043390909450923204c4154494e204341504954414c204c455454455220452057495448204143555445),
  (50, 0x3078303043410909450923204c4154494e204341504954414c204c4554544552204520574954482043495243554d464c4558),
  (49, 0x3078303043420909450923204c4154494e204341504954414c204c45545445522045205749544820444941455245534953),
  (45, 0x3078303043430909490923204c4154494e204341504954414c204c455454455220492057495448204752415645),
  (45, 0x3078303043440909490923204c4154494e204341504954414c204c455454455220492057495448204143555445),
  (50, 0x3078303043450909490923204c4154494e204341504954414c204c4554544552204920574954482043495243554d464c4558),
  (49, 0x3078303043460909490923204c4154494e204341504954414c204c45545445522049205749544820444941455245534953),
  (0, 0x0),
  (49, 0x307830304430090954480923204c4154494e204341504954414c204c45545445522045544820284963656c616e64696329),
  (45, 0x30783030443109094e0923204c4154494e204341504954414c204c4554544552204e20574954482054494c4445),
  (45, 0x30783030443209094f0923204c4154494e204341504954414c204c4554544552204f2057495448204752415645),
  (45, 0x30783030443309094f0923204c4154494e204341504954414c204c4554544552204f2057495448204143555445),
  (50, 0x30783030443409094f0923204c4154494e204341504954414c204c4554544552204f20574954482043495243554d464c4558),
  (45, 0x30783030443509094f0923204c4154494e204341504954414c204c4554544552204f20574954482054494c4445),
  (49, 0x30783030443609094f0923204c4154494e204341504954414c204c4554544552204f205749544820444941455245534953),
  (31, 0x3078303044370909780923204d554c5449504c49434154494f4e205349474e),
  (46, 0x30783030443809094f0923204c4154494e204341504954414c204c4554544552204f2057495448205354524f4b45),
  (45, 0x3078303044390909550923204c4154494e204341504954414c204c455454455220552057495448204752415645),
  (45, 0x3078303044410909550923204c4154494e204341504954414c204c455454455220552057495448204143555445),
  (50, 0x3078303044420909550923204c4154494e204341504954414c204c4554544552205520574954482043495243554d464c4558),
  (49, 0x3078303044430909550923204c4154494e204341504954414c204c45545445522055205749544820444941455245534953),
  (45, 0x3078303044440909590923204c4154494e204341504954414c204c455454455220592057495448204143555445),
  (51, 0x307830304445090954480923204c4154494e204341504954414c204c45545445522054484f524e20284963656c616e64696329),
  (48, 0x307830304446090973730923204c4154494e20534d414c4c204c4554544552205348415250205320284765726d616e29),
  (0, 0x0),
  (43, 0x3078303045300909610923204c4154494e20534d414c4c204c455454455220412057495448204752415645),
  (43, 0x3078303045310909610923204c4154494e20534d414c4c204c455454455220412057495448204143555445),
  (48, 0x3078303045320909610923204c4154494e20534d414c4c204c4554544552204120574954482043495243554d464c4558),
  (43, 0x3078303045330909610923204c4154494e20534d414c4c204c4554544552204120574954482054494c4445),
  (47, 0x3078303045340909610923204c4154494e20534d414c4c204c45545445522041205749544820444941455245534953),
  (48, 0x3078303045350909610923204c4154494e20534d414c4c204c4554544552204120574954482052494e472041424f5645),
  (34, 0x307830304536090961650923204c4154494e20534d414c4c204c4554544552204145),
  (45, 0x3078303045370909630923204c4154494e20534d414c4c204c45545445522043205749544820434544494c4c41),
  (43, 0x3078303045380909650923204c4154494e20534d414c4c204c455454455220452057495448204752415645),
  (43, 0x3078303045390909650923204c4154494e20534d414c4c204c455454455220452057495448204143555445),
  (48, 0x3078303045410909650923204c4154494e20534d414c4c204c4554544552204520574954482043495243554d464c4558),
  (47, 0x3078303045420909650923204c4154494e20534d414c4c204c45545445522045205749544820444941455245534953),
  (43, 0x3078303045430909690923204c4154494e20534d414c4c204c455454455220492057495448204752415645),
  (43, 0x3078303045440909690923204c4154494e20534d414c4c204c455454455220492057495448204143555445),
  (48, 0x3078303045450909690923204c4154494e20534d414c4c204c4554544552204920574954482043495243554d464c4558),
  (47, 0x3078303045460909690923204c4154494e20534d414c4c204c45545445522049205749544820444941455245534953),
  (0, 0x0),
  (47, 0x307830304630090974680923204c4154494e20534d414c4c204c45545445522045544820284963656c616e64696329),
  (43, 0x30783030463109096e0923204c4154494e20534d414c4c204c4554544552204e20574954482054494c4445),
  (43, 0x30783030463209096f0923204c4154494e20534d414c4c204c4554544552204f2057495448204752415645),
  (43, 0x30783030463309096f0923204c4154494e20534d414c4c204c4554544552204f2057495448204143555445),
  (48, 0x30783030463409096f0923204c4154494e20534d414c4c204c4554544552204f20574954482043495243554d464c4558),
  (43, 0x30783030463509096f0923204c4154494e20534d414c4c204c4554544552204f20574954482054494c4445),
  (47, 0x30783030463609096f0923204c4154494e20534d414c4c204c4554544552204f205749544820444941455245534953),
  (44, 0x30783030463809096f0923204c4154494e20534d414c4c204c4554544552204f2057495448205354524f4b45),
  (43, 0x3078303046390909750923204c4154494e20534d414c4c204c455454455220552057495448204752415645),
  (43, 0x3078303046410909750923204c4154494e20534d414c4c204c455454455220552057495448204143555445),
  (48, 0x3078303046420909750923204c4154494e20534d414c4c204c4554544552205520574954482043495243554d464c4558),
  (47, 0x3078303046430909750923204c4154494e20534d414c4c204c45545445522055205749544820444941455245534953),
  (43, 0x3078303046440909790923204c4154494e20534d414c4c204c455454455220592057495448204143555445),
  (49, 0x307830304645090974680923204c4154494e20534d414c4c204c45545445522054484f524e20284963656c616e64696329),
  (47, 0x3078303046460909790923204c4154494e20534d414c4c204c45545445522059205749544820444941455245534953)]

/-- Lines 120-120 of table/legacy/iso8859_1.tbl. -/
def legacy_iso8859_1_3 : List (Nat × Nat) := [
  (0, 0x0)]

/-- Lines 121-121 of table/legacy/iso8859_1.tbl. -/
def legacy_iso8859_1_4 : List (Nat × Nat) := [
  (3, 0x656e64)]

/-- Lines 122-126 of table/legacy/iso8859_1.tbl. -/
def legacy_iso8859_1_5 : List (Nat × Nat) := [
  (0, 0x0),
  (1, 0x23),
  (29, 0x23204765726d616e20737065636966696320636f6e76657273696f6e73),
  (1, 0x23),
  (0, 0x0)]

/-- Lines 127-127 of table/legacy/iso8859_1.tbl. -/
def legacy_iso8859_1_6 : List (Nat × Nat) := [
  (9, 0x737461727409096465)]

/-- Lines 128-136 of table/legacy/iso8859_1.tbl. -/
def legacy_iso8859_1_7 : List (Nat × Nat) := [
  (0, 0x0),
  (47, 0x307830304334090941450923204c4154494e204341504954414c204c45545445522041205749544820554d4c415554),
  (47, 0x30783030443609094f450923204c4154494e204341504954414c204c4554544552204f205749544820554d4c415554),
  (47, 0x307830304443090955450923204c4154494e204341504954414c204c45545445522055205749544820554d4c415554),
  (0, 0x0),
  (45, 0x307830304534090961650923204c4154494e20534d414c4c204c45545445522041205749544820554d4c415554),
  (45, 0x30783030463609096f650923204c4154494e20534d414c4c204c4554544552204f205749544820554d4c415554),
  (45, 0x307830304643090975650923204c4154494e20534d414c4c204c45545445522055205749544820554d4c415554),
  (0, 0x0)]

/-- Lines 137-137 of table/legacy/iso8859_1.tbl. -/
def legacy_iso8859_1_8 : List (Nat × Nat) := [
  (3, 0x656e64)]

/-- The parts between the first `start` and the first `end` of table/legacy/iso8859_1.tbl, lines 20-120. -/
def legacy_iso8859_1_body : List (List (Nat × Nat)) := [
  legacy_iso8859_1_2, legacy_iso8859_1_3]

/-- All parts of table/legacy/iso8859_1.tbl, lines 1-137. -/
def legacy_iso8859_1_parts : List (List (Nat × Nat)) := legacy_iso8859_1_0 :: legacy_iso8859_1_1 :: (legacy_iso8859_1_body ++ [
  legacy_iso8859_1_4, legacy_iso8859_1_5, legacy_iso8859_1_6, legacy_iso8859_1_7, legacy_iso8859_1_8])

/-- The file table/legacy/iso8859_1.tbl, lines 1-137. -/
def legacy_iso8859_1 : Bytes := packedFile legacy_iso8859_1_parts.flatten

/-- Lines 1-35 of table/legacy/unicode.tbl. -/
def legacy_unicode_0 : List (Nat × Nat) := [
  (41, 0x2320546869732066696c652069732070617274206f6620746865204465746f78207061636b6167652e),
  (1, 0x23),
  (53, 0x2320436f707972696768742028632920446f756720486172706c65203c6465746f782e64686172706c6540676d61696c2e636f6d3e),
  (1, 0x23),
  (73, 0x2320466f72207468652066756c6c20636f7079726967687420616e64206c6963656e736520696e666f726d6174696f6e2c20706c65617365207669657720746865204c4943454e5345),
  (50, 0x232066696c652074686174207761732064697374726962757465642077697468207468697320736f7572636520636f64652e),
  (0, 0x0),
  (1, 0x23),
  (20, 0x23205370656369616c207468616e6b7320746f3a),
  (60, 0x23202d2068747470733a2f2f7777772e756e69636f64652e6f72672f5075626c69632f352e322e302f7563642f556e69636f6465446174612e747874),
  (44, 0x23202d2068747470733a2f2f6d6574616370616e2e6f72672f706f642f546578743a3a556e696465636f6465),
  (43, 0x23202d2068747470733a2f2f6769746875622e636f6d2f42656861742f5472616e736c6974657261746f72),
  (35, 0x23202d2068747470733a2f2f7777772e756e69636f64652e6f72672f6368617274732f),
  (1, 0x23),
  (33, 0x23205573656420666f72207472616e736c6174696e67204963656c616e6469633a),
  (47, 0x23202d20687474703a2f2f7777772e626172746c6562792e636f6d2f36352f74682f5468696e6776616c2e68746d6c),
  (55, 0x23202d20687474703a2f2f7777772e776f726469712e636f6d2f646566696e6974696f6e2f54686f726e5f2532386c6574746572253239),
  (40, 0x23202d20687474703a2f2f7777772e776f726469712e636f6d2f646566696e6974696f6e2f456468),
  (1, 0x23),
  (14, 0x2320477265656e6c616e6469633a),
  (71, 0x23202d20687474703a2f2f7374642e646b7575672e646b2f63756c747265672f726567697374726174696f6e732f6e61727261746976652f64615f444b2c5f342e332e68746d6c),
  (46, 0x23202d2068747470733a2f2f656e2e77696b6970656469612e6f72672f77696b692f4b72615f286c657474657229),
  (1, 0x23),
  (7, 0x232053616d693a),
  (51, 0x23202d20687474703a2f2f7777772e776f726469712e636f6d2f646566696e6974696f6e2f53616d695f6c616e677561676573),
  (1, 0x23),
  (11, 0x23204765726d616e69633a),
  (40, 0x23202d20687474703a2f2f7777772e776f726469712e636f6d2f646566696e6974696f6e2f254446),
  (1, 0x23),
  (11, 0x232043757272656e63793a),
  (36, 0x23202d20232068747470733a2f2f7777772e78652e636f6d2f73796d626f6c732e706870),
  (1, 0x23),
  (0, 0x0),
  (10, 0x64656661756c7409095f),
  (0, 0x0)]

/-- Lines 36-36 of table/legacy/unicode.tbl. -/
def legacy_unicode_1 : List (Nat × Nat) := [
  (5, 0x7374617274)]

/-- Lines 37-136 of table/legacy/unicode.tbl. -/
def legacy_unicode_2 : List (Nat × Nat) := [
  (0, 0x0),
  (1, 0x23),
  (47, 0x2320433020436f6e74726f6c7320616e64204261736963204c6174696e202d20307830303030e28093307830303746),
  (1, 0x23),
  (46, 0x232068747470733a2f2f7777772e756e69636f64652e6f72672f6368617274732f5044462f55303030302e706466),
  (1, 0x23),
  (0, 0x0),
  (19, 0x30783030323009092220220923205350414345),
  (28, 0x3078303032310909210923204558434c414d4154494f4e204d41524b),
  (28, 0x307830303232090927222709232051554f544154494f4e204d41524b),
  (23, 0x3078303032330909230923204e554d424552205349474e),
  (23, 0x307830303234090924092320444f4c4c4152205349474e),
  (24, 0x30783030323509092509232050455243454e54205349474e),
  (21, 0x307830303236090926092320414d50455253414e44),
  (24, 0x307830303237090922272209232041504f5354524f504845),
  (28, 0x3078303032380909280923204c45465420504152454e544845534953),
  (29, 0x307830303239090929092320524947485420504152454e544845534953),
  (20, 0x30783030324109092a092320415354455249534b),
  (21, 0x30783030324209092b092320504c5553205349474e),
  (17, 0x30783030324309092c092320434f4d4d41),
  (24, 0x30783030324409092d09232048595048454e2d4d494e5553),
  (21, 0x30783030324509092e09232046554c4c2053544f50),
  (19, 0x30783030324609092f092320534f4c49445553),
  (0, 0x0),
  (22, 0x3078303033300909300923204449474954205a45524f),
  (21, 0x3078303033310909310923204449474954204f4e45),
  (21, 0x30783030333209093209232044494749542054574f),
  (23, 0x3078303033330909330923204449474954205448524545),
  (22, 0x307830303334090934092320444947495420464f5552),
  (22, 0x30783030333509093509232044494749542046495645),
  (21, 0x307830303336090936092320444947495420534958),
  (23, 0x307830303337090937092320444947495420534556454e),
  (23, 0x3078303033380909380923204449474954204549474854),
  (22, 0x3078303033390909390923204449474954204e494e45),
  (17, 0x30783030334109093a092320434f4c4f4e),
  (21, 0x30783030334209093b09232053454d49434f4c4f4e),
  (26, 0x30783030334309093c0923204c4553532d5448414e205349474e),
  (23, 0x30783030334409093d092320455155414c53205349474e),
  (29, 0x30783030334509093e092320475245415445522d5448414e205349474e),
  (25, 0x30783030334609093f0923205155455354494f4e204d41524b),
  (0, 0x0),
  (25, 0x307830303430090940092320434f4d4d45524349414c204154),
  (34, 0x3078303034310909410923204c4154494e204341504954414c204c45545445522041),
  (34, 0x3078303034320909420923204c4154494e204341504954414c204c45545445522042),
  (34, 0x3078303034330909430923204c4154494e204341504954414c204c45545445522043),
  (34, 0x3078303034340909440923204c4154494e204341504954414c204c45545445522044),
  (34, 0x3078303034350909450923204c4154494e204341504954414c204c45545445522045),
  (34, 0x3078303034360909460923204c4154494e204341504954414c204c45545445522046),
  (34, 0x3078303034370909470923204c4154494e204341504954414c204c45545445522047),
  (34, 0x3078303034380909480923204c4154494e204341504954414c204c45545445522048),
  (34, 0x3078303034390909490923204c4154494e204341504954414c204c45545445522049),
  (34, 0x30783030344109094a0923204c4154494e204341504954414c204c4554544552204a),
  (34, 0x30783030344209094b0923204c4154494e204341504954414c204c4554544552204b),
  (34, 0x30783030344309094c0923204c4154494e204341504954414c204c4554544552204c),
  (34, 0x30783030344409094d0923204c4154494e204341504954414c204c4554544552204d),
  (34, 0x30783030344509094e0923204c4154494e204341504954414c204c4554544552204e),
  (34, 0x30783030344609094f0923204c4154494e204341504954414c204c4554544552204f),
  (0, 0x0),
  (34, 0x3078303035300909500923204c4154494e204341504954414c204c45545445522050),
  (34, 0x3078303035310909510923204c4154494e204341504954414c204c45545445522051),
  (34, 0x3078303035320909520923204c4154494e204341504954414c204c45545445522052),
  (34, 0x3078303035330909530923204c4154494e204341504954414c204c45545445522053),
  (34, 0x3078303035340909540923204c4154494e204341504954414c204c45545445522054),
  (34, 0x3078303035350909550923204c4154494e204341504954414c204c45545445522055),
  (34, 0x3078303035360909560923204c4154494e204341504954414c204c45545445522056),
  (34, 0x3078303035370909570923204c4154494e204341504954414c204c45545445522057),
  (34, 0x3078303035380909580923204c4154494e204341504954414c204c45545445522058),
  (34, 0x3078303035390909590923204c4154494e204341504954414c204c45545445522059),
  (34, 0x30783030354109095a0923204c4154494e204341504954414c204c4554544552205a),
  (31, 0x30783030354209095b0923204c4546542053515541524520425241434b4554),
  (27, 0x30783030354309095c0923205245564552534520534f4c49445553),
  (32, 0x30783030354409095d09232052494748542053515541524520425241434b4554),
  (29, 0x30783030354509095e09232043495243554d464c455820414343454e54),
  (20, 0x30783030354609095f0923204c4f57204c494e45),
  (0, 0x0),
  (24, 0x307830303630090960092320475241564520414343454e54),
  (32, 0x3078303036310909610923204c4154494e20534d414c4c204c45545445522041),
  (32, 0x3078303036320909620923204c4154494e20534d414c4c204c45545445522042),
  (32, 0x3078303036330909630923204c4154494e20534d414c4c204c45545445522043),
  (32, 0x3078303036340909640923204c4154494e20534d414c4c204c45545445522044),
  (32, 0x3078303036350909650923204c4154494e20534d414c4c204c45545445522045),
  (32, 0x3078303036360909660923204c4154494e20534d414c4c204c45545445522046),
  (32, 0x3078303036370909670923204c4154494e20534d414c4c204c45545445522047),
  (32, 0x3078303036380909680923204c4154494e20534d414c4c204c45545445522048),
  (32, 0x3078303036390909690923204c4154494e20534d414c4c204c45545445522049),
  (32, 0x30783030364109096a0923204c4154494e20534d414c4c204c4554544552204a),
  (32, 0x30783030364209096b0923204c4154494e20534d414c4c204c4554544552204b),
  (32, 0x30783030364309096c0923204c4154494e20534d414c4c204c4554544552204c),
  (32, 0x30783030364409096d0923204c4154494e20534d414c4c204c4554544552204d),
  (32, 0x30783030364509096e0923204c4154494e20534d414c4c204c4554544552204e),
  (32, 0x30783030364609096f0923204c4154494e20534d414c4c204c4554544552204f),
  (0, 0x0),
  (32, 0x3078303037300909700923204c4154494e20534d414c4c204c45545445522050),
  (32, 0x3078303037310909710923204c4154494e20534d414c4c204c45545445522051),
  (32, 0x3078303037320909720923204c4154494e20534d414c4c204c45545445522052),
  (32, 0x3078303037330909730923204c4154494e20534d414c4c204c45545445522053),
  (32, 0x3078303037340909740923204c4154494e20534d414c4c204c45545445522054),
  (32, 0x3078303037350909750923204c4154494e20534d414c4c204c45545445522055),
  (32, 0x3078303037360909760923204c4154494e20534d414c4c204c45545445522056),
  (32, 0x3078303037370909770923204c4154494e20534d414c4c204c45545445522057)]

/-- Lines 137-236 of table/legacy/unicode.tbl. -/
def legacy_unicode_3 : List (Nat × Nat) := [
  (32, 0x3078303037380909780923204c4154494e20534d414c4c204c45545445522058),
  (32, 0x3078303037390909790923204c4154494e20534d414c4c204c45545445522059),
  (32, 0x30783030374109097a0923204c4154494e20534d414c4c204c4554544552205a),
  (30, 0x30783030374209097b0923204c454654204355524c5920425241434b4554),
  (25, 0x30783030374309097c092320564552544943414c204c494e45),
  (31, 0x30783030374409097d0923205249474854204355524c5920425241434b4554),
  (17, 0x30783030374509097e09232054494c4445),
  (0, 0x0),
  (1, 0x23),
  (38, 0x23204c6174696e203120537570706c656d656e74616c202d203078303038302d307830304646),
  (1, 0x23),
  (42, 0x232068747470733a2f2f756e69636f64652e6f72672f6368617274732f5044462f55303038302e706466),
  (1, 0x23),
  (0, 0x0),
  (28, 0x30783030413009092220220923204e4f2d425245414b205350414345),
  (37, 0x307830304131090921092320494e564552544544204558434c414d4154494f4e204d41524b),
  (26, 0x30783030413209095f63656e745f09232043454e54205349474e),
  (28, 0x30783030413309095f706f756e645f092320504f554e44205349474e),
  (25, 0x30783030413409092409232043555252454e4359205349474e),
  (24, 0x30783030413509095f79656e5f09232059454e205349474e),
  (27, 0x30783030413709095f73735f09232053454354494f4e205349474e),
  (23, 0x3078303041380909222022092320444941455245534953),
  (31, 0x30783030413909095f636f70795f092320434f50595249474854205349474e),
  (40, 0x30783030414109095f615f09232046454d494e494e45204f5244494e414c20494e44494341544f52),
  (55, 0x30783030414209092722270923204c4546542d504f494e54494e4720444f55424c4520414e474c452051554f544154494f4e204d41524b),
  (23, 0x30783030414409092d092320534f46542048595048454e),
  (31, 0x30783030414509095f7265675f09232052454749535445524544205349474e),
  (0, 0x0),
  (27, 0x30783030423009095f6465675f092320444547524545205349474e),
  (28, 0x30783030423209095e3209232053555045525343524950542054574f),
  (30, 0x30783030423309095e330923205355504552534352495054205448524545),
  (26, 0x3078303042340909222722092320414355544520414343454e54),
  (22, 0x3078303042350909750923204d4943524f205349474e),
  (27, 0x30783030423609095f70705f09232050494c43524f57205349474e),
  (22, 0x30783030423709092a0923204d4944444c4520444f54),
  (21, 0x3078303042380909222022092320434544494c4c41),
  (28, 0x30783030423909095e310923205355504552534352495054204f4e45),
  (41, 0x30783030424109095f6f5f0923204d415343554c494e45204f5244494e414c20494e44494341544f52),
  (56, 0x307830304242090927222709232052494748542d504f494e54494e4720444f55424c4520414e474c452051554f544154494f4e204d41524b),
  (34, 0x30783030424609093f092320494e564552544544205155455354494f4e204d41524b),
  (0, 0x0),
  (45, 0x3078303043300909410923204c4154494e204341504954414c204c455454455220412057495448204752415645),
  (45, 0x3078303043310909410923204c4154494e204341504954414c204c455454455220412057495448204143555445),
  (50, 0x3078303043320909410923204c4154494e204341504954414c204c4554544552204120574954482043495243554d464c4558),
  (45, 0x3078303043330909410923204c4154494e204341504954414c204c4554544552204120574954482054494c4445),
  (49, 0x3078303043340909410923204c4154494e204341504954414c204c45545445522041205749544820444941455245534953),
  (50, 0x3078303043350909410923204c4154494e204341504954414c204c4554544552204120574954482052494e472041424f5645),
  (36, 0x307830304336090941450923204c4154494e204341504954414c204c4554544552204145),
  (47, 0x3078303043370909430923204c4154494e204341504954414c204c45545445522043205749544820434544494c4c41),
  (45, 0x3078303043380909450923204c4154494e204341504954414c204c455454455220452057495448204752415645),
  (45, 0x3078303043390909450923204c4154494e204341504954414c204c455454455220452057495448204143555445),
  (50, 0x3078303043410909450923204c4154494e204341504954414c204c4554544552204520574954482043495243554d464c4558),
  (49, 0x3078303043420909450923204c4154494e204341504954414c204c45545445522045205749544820444941455245534953),
  (45, 0x3078303043430909490923204c4154494e204341504954414c204c455454455220492057495448204752415645),
  (45, 0x3078303043440909490923204c4154494e204341504954414c204c455454455220492057495448204143555445),
  (50, 0x3078303043450909490923204c4154494e204341504954414c204c4554544552204920574954482043495243554d464c4558),
  (49, 0x3078303043460909490923204c4154494e204341504954414c204c45545445522049205749544820444941455245534953),
  (0, 0x0),
  (49, 0x307830304430090954480923204c4154494e204341504954414c204c45545445522045544820284963656c616e64696329),
  (45, 0x30783030443109094e0923204c4154494e204341504954414c204c4554544552204e20574954482054494c4445),
  (45, 0x30783030443209094f0923204c4154494e204341504954414c204c4554544552204f2057495448204752415645),
  (45, 0x30783030443309094f0923204c4154494e204341504954414c204c4554544552204f2057495448204143555445),
  (50, 0x30783030443409094f0923204c4154494e204341504954414c204c4554544552204f20574954482043495243554d464c4558),
  (45, 0x30783030443509094f0923204c4154494e204341504954414c204c4554544552204f20574954482054494c4445),
  (49, 0x30783030443609094f0923204c4154494e204341504954414c204c4554544552204f205749544820444941455245534953),
  (31, 0x3078303044370909780923204d554c5449504c49434154494f4e205349474e),
  (46, 0x30783030443809094f0923204c4154494e204341504954414c204c4554544552204f2057495448205354524f4b45),
  (45, 0x3078303044390909550923204c4154494e204341504954414c204c455454455220552057495448204752415645),
  (45, 0x3078303044410909550923204c4154494e204341504954414c204c455454455220552057495448204143555445),
  (50, 0x3078303044420909550923204c4154494e204341504954414c204c4554544552205520574954482043495243554d464c4558),
  (49, 0x3078303044430909550923204c4154494e204341504954414c204c45545445522055205749544820444941455245534953),
  (45, 0x3078303044440909590923204c4154494e204341504954414c204c455454455220592057495448204143555445),
  (51, 0x307830304445090954480923204c4154494e204341504954414c204c45545445522054484f524e20284963656c616e64696329),
  (48, 0x307830304446090973730923204c4154494e20534d414c4c204c4554544552205348415250205320284765726d616e29),
  (0, 0x0),
  (43, 0x3078303045300909610923204c4154494e20534d414c4c204c455454455220412057495448204752415645),
  (43, 0x3078303045310909610923204c4154494e20534d414c4c204c455454455220412057495448204143555445),
  (48, 0x3078303045320909610923204c4154494e20534d414c4c204c4554544552204120574954482043495243554d464c4558),
  (43, 0x3078303045330909610923204c4154494e20534d414c4c204c4554544552204120574954482054494c4445),
  (47, 0x3078303045340909610923204c4154494e20534d414c4c204c45545445522041205749544820444941455245534953),
  (48, 0x3078303045350909610923204c4154494e20534d414c4c204c4554544552204120574954482052494e472041424f5645),
  (34, 0x307830304536090961650923204c4154494e20534d414c4c204c4554544552204145),
  (45, 0x3078303045370909630923204c4154494e20534d414c4c204c45545445522043205749544820434544494c4c41),
  (43, 0x3078303045380909650923204c4154494e20534d414c4c204c455454455220452057495448204752415645),
  (43, 0x3078303045390909650923204c4154494e20534d414c4c204c455454455220452057495448204143555445),
  (48, 0x3078303045410909650923204c4154494e20534d414c4c204c4554544552204520574954482043495243554d464c4558),
  (47, 0x3078303045420909650923204c4154494e20534d414c4c204c45545445522045205749544820444941455245534953),
  (43, 0x3078303045430909690923204c4154494e20534d414c4c204c455454455220492057495448204752415645),
  (43, 0x3078303045440909690923204c4154494e20534d414c4c204c455454455220492057495448204143555445),
  (48, 0x3078303045450909690923204c4154494e20534d414c4c204c4554544552204920574954482043495243554d464c4558),
  (47, 0x3078303045460909690923204c4154494e20534d414c4c204c45545445522049205749544820444941455245534953),
  (0, 0x0),
  (47, 0x307830304630090974680923204c4154494e20534d414c4c204c45545445522045544820284963656c616e64696329),
  (43, 0x30783030463109096e0923204c4154494e20534d414c4c204c4554544552204e20574954482054494c4445),
  (43, 0x30783030463209096f0923204c4154494e20534d414c4c204c4554544552204f2057495448204752415645),
  (43, 0x30783030463309096f0923204c4154494e20534d414c4c204c4554544552204f2057495448204143555445),
  (48, 0x30783030463409096f0923204c4154494e20534d414c4c204c4554544552204f20574954482043495243554d464c4558),
  (43, 0x30783030463509096f0923204c4154494e20534d414c4c204c4554544552204f20574954482054494c4445),
  (47, 0x30783030463609096f0923204c4154494e20534d414c4c204c4554544552204f205749544820444941455245534953),
  (44, 0x30783030463809096f0923204c4154494e20534d414c4c204c4554544552204f2057495448205354524f4b45)]

/-- Lines 237-336 of table/legacy/unicode.tbl. -/
def legacy_unicode_4 : List (Nat × Nat) := [
  (43, 0x3078303046390909750923204c4154494e20534d414c4c204c455454455220552057495448204752415645),
  (43, 0x3078303046410909750923204c4154494e20534d414c4c204c455454455220552057495448204143555445),
  (48, 0x3078303046420909750923204c4154494e20534d414c4c204c4554544552205520574954482043495243554d464c4558),
  (47, 0x3078303046430909750923204c4154494e20534d414c4c204c45545445522055205749544820444941455245534953),
  (43, 0x3078303046440909790923204c4154494e20534d414c4c204c455454455220592057495448204143555445),
  (49, 0x307830304645090974680923204c4154494e20534d414c4c204c45545445522054484f524e20284963656c616e64696329),
  (47, 0x3078303046460909790923204c4154494e20534d414c4c204c45545445522059205749544820444941455245534953),
  (0, 0x0),
  (1, 0x23),
  (33, 0x23204c6174696e20457874656e6465642041202d203078303130302d3078313746),
  (1, 0x23),
  (46, 0x232068747470733a2f2f7777772e756e69636f64652e6f72672f6368617274732f5044462f55303130302e706466),
  (1, 0x23),
  (0, 0x0),
  (46, 0x3078303130300909410923204c4154494e204341504954414c204c455454455220412057495448204d4143524f4e),
  (44, 0x3078303130310909610923204c4154494e20534d414c4c204c455454455220412057495448204d4143524f4e),
  (45, 0x3078303130320909410923204c4154494e204341504954414c204c455454455220412057495448204252455645),
  (43, 0x3078303130330909610923204c4154494e20534d414c4c204c455454455220412057495448204252455645),
  (46, 0x3078303130340909410923204c4154494e204341504954414c204c455454455220412057495448204f474f4e454b),
  (44, 0x3078303130350909610923204c4154494e20534d414c4c204c455454455220412057495448204f474f4e454b),
  (45, 0x3078303130360909430923204c4154494e204341504954414c204c455454455220432057495448204143555445),
  (43, 0x3078303130370909630923204c4154494e20534d414c4c204c455454455220432057495448204143555445),
  (50, 0x3078303130380909430923204c4154494e204341504954414c204c4554544552204320574954482043495243554d464c4558),
  (48, 0x3078303130390909630923204c4154494e20534d414c4c204c4554544552204320574954482043495243554d464c4558),
  (49, 0x3078303130410909430923204c4154494e204341504954414c204c45545445522043205749544820444f542041424f5645),
  (47, 0x3078303130420909630923204c4154494e20534d414c4c204c45545445522043205749544820444f542041424f5645),
  (45, 0x3078303130430909430923204c4154494e204341504954414c204c455454455220432057495448204341524f4e),
  (43, 0x3078303130440909630923204c4154494e20534d414c4c204c455454455220432057495448204341524f4e),
  (45, 0x3078303130450909440923204c4154494e204341504954414c204c455454455220442057495448204341524f4e),
  (43, 0x3078303130460909640923204c4154494e20534d414c4c204c455454455220442057495448204341524f4e),
  (0, 0x0),
  (46, 0x3078303131300909440923204c4154494e204341504954414c204c455454455220442057495448205354524f4b45),
  (44, 0x3078303131310909640923204c4154494e20534d414c4c204c455454455220442057495448205354524f4b45),
  (46, 0x3078303131320909450923204c4154494e204341504954414c204c455454455220452057495448204d4143524f4e),
  (44, 0x3078303131330909650923204c4154494e20534d414c4c204c455454455220452057495448204d4143524f4e),
  (45, 0x3078303131340909450923204c4154494e204341504954414c204c455454455220452057495448204252455645),
  (43, 0x3078303131350909650923204c4154494e20534d414c4c204c455454455220452057495448204252455645),
  (49, 0x3078303131360909450923204c4154494e204341504954414c204c45545445522045205749544820444f542041424f5645),
  (47, 0x3078303131370909650923204c4154494e20534d414c4c204c45545445522045205749544820444f542041424f5645),
  (46, 0x3078303131380909450923204c4154494e204341504954414c204c455454455220452057495448204f474f4e454b),
  (44, 0x3078303131390909650923204c4154494e20534d414c4c204c455454455220452057495448204f474f4e454b),
  (45, 0x3078303131410909450923204c4154494e204341504954414c204c455454455220452057495448204341524f4e),
  (43, 0x3078303131420909650923204c4154494e20534d414c4c204c455454455220452057495448204341524f4e),
  (50, 0x3078303131430909470923204c4154494e204341504954414c204c4554544552204720574954482043495243554d464c4558),
  (48, 0x3078303131440909670923204c4154494e20534d414c4c204c4554544552204720574954482043495243554d464c4558),
  (45, 0x3078303131450909470923204c4154494e204341504954414c204c455454455220472057495448204252455645),
  (43, 0x3078303131460909670923204c4154494e20534d414c4c204c455454455220472057495448204252455645),
  (0, 0x0),
  (49, 0x3078303132300909470923204c4154494e204341504954414c204c45545445522047205749544820444f542041424f5645),
  (47, 0x3078303132310909670923204c4154494e20534d414c4c204c45545445522047205749544820444f542041424f5645),
  (47, 0x3078303132320909470923204c4154494e204341504954414c204c45545445522047205749544820434544494c4c41),
  (45, 0x3078303132330909670923204c4154494e20534d414c4c204c45545445522047205749544820434544494c4c41),
  (50, 0x3078303132340909480923204c4154494e204341504954414c204c4554544552204820574954482043495243554d464c4558),
  (48, 0x3078303132350909680923204c4154494e20534d414c4c204c4554544552204820574954482043495243554d464c4558),
  (46, 0x3078303132360909480923204c4154494e204341504954414c204c455454455220482057495448205354524f4b45),
  (44, 0x3078303132370909680923204c4154494e20534d414c4c204c455454455220482057495448205354524f4b45),
  (45, 0x3078303132380909490923204c4154494e204341504954414c204c4554544552204920574954482054494c4445),
  (43, 0x3078303132390909690923204c4154494e20534d414c4c204c4554544552204920574954482054494c4445),
  (46, 0x3078303132410909490923204c4154494e204341504954414c204c455454455220492057495448204d4143524f4e),
  (44, 0x3078303132420909690923204c4154494e20534d414c4c204c455454455220492057495448204d4143524f4e),
  (45, 0x3078303132430909490923204c4154494e204341504954414c204c455454455220492057495448204252455645),
  (43, 0x3078303132440909690923204c4154494e20534d414c4c204c455454455220492057495448204252455645),
  (46, 0x3078303132450909490923204c4154494e204341504954414c204c455454455220492057495448204f474f4e454b),
  (44, 0x3078303132460909690923204c4154494e20534d414c4c204c455454455220492057495448204f474f4e454b),
  (0, 0x0),
  (49, 0x3078303133300909490923204c4154494e204341504954414c204c45545445522049205749544820444f542041424f5645),
  (40, 0x3078303133310909690923204c4154494e20534d414c4c204c455454455220444f544c4553532049),
  (38, 0x3078303133320909494a0923204c4154494e204341504954414c204c4947415455524520494a),
  (36, 0x3078303133330909696a0923204c4154494e20534d414c4c204c4947415455524520494a),
  (50, 0x30783031333409094a0923204c4154494e204341504954414c204c4554544552204a20574954482043495243554d464c4558),
  (48, 0x30783031333509096a0923204c4154494e20534d414c4c204c4554544552204a20574954482043495243554d464c4558),
  (47, 0x30783031333609094b0923204c4154494e204341504954414c204c4554544552204b205749544820434544494c4c41),
  (45, 0x30783031333709096b0923204c4154494e20534d414c4c204c4554544552204b205749544820434544494c4c41),
  (48, 0x3078303133380909710923204c4154494e20534d414c4c204c4554544552204b52412028477265656e6c616e64696329),
  (45, 0x30783031333909094c0923204c4154494e204341504954414c204c4554544552204c2057495448204143555445),
  (43, 0x30783031334109096c0923204c4154494e20534d414c4c204c4554544552204c2057495448204143555445),
  (47, 0x30783031334209094c0923204c4154494e204341504954414c204c4554544552204c205749544820434544494c4c41),
  (45, 0x30783031334309096c0923204c4154494e20534d414c4c204c4554544552204c205749544820434544494c4c41),
  (45, 0x30783031334409094c0923204c4154494e204341504954414c204c4554544552204c2057495448204341524f4e),
  (43, 0x30783031334509096c0923204c4154494e20534d414c4c204c4554544552204c2057495448204341524f4e),
  (50, 0x30783031334609094c0923204c4154494e204341504954414c204c4554544552204c2057495448204d4944444c4520444f54),
  (0, 0x0),
  (48, 0x30783031343009096c0923204c4154494e20534d414c4c204c4554544552204c2057495448204d4944444c4520444f54),
  (46, 0x30783031343109094c0923204c4154494e204341504954414c204c4554544552204c2057495448205354524f4b45),
  (44, 0x30783031343209096c0923204c4154494e20534d414c4c204c4554544552204c2057495448205354524f4b45),
  (45, 0x30783031343309094e0923204c4154494e204341504954414c204c4554544552204e2057495448204143555445),
  (43, 0x30783031343409096e0923204c4154494e20534d414c4c204c4554544552204e2057495448204143555445),
  (47, 0x30783031343509094e0923204c4154494e204341504954414c204c4554544552204e205749544820434544494c4c41),
  (45, 0x30783031343609096e0923204c4154494e20534d414c4c204c4554544552204e205749544820434544494c4c41),
  (45, 0x30783031343709094e0923204c4154494e204341504954414c204c4554544552204e2057495448204341524f4e),
  (43, 0x30783031343809096e0923204c4154494e20534d414c4c204c4554544552204e2057495448204341524f4e),
  (58, 0x307830313439090922276e220923204c4154494e20534d414c4c204c4554544552204e2050524543454445442042592041504f5354524f504845),
  (44, 0x30783031344109094e470923204c4154494e204341504954414c204c455454455220454e47202853616d6929),
  (42, 0x30783031344209096e670923204c4154494e20534d414c4c204c455454455220454e47202853616d6929),
  (46, 0x30783031344309094f0923204c4154494e204341504954414c204c4554544552204f2057495448204d4143524f4e),
  (44, 0x30783031344409096f0923204c4154494e20534d414c4c204c4554544552204f2057495448204d4143524f4e),
  (45, 0x30783031344509094f0923204c4154494e204341504954414c204c4554544552204f2057495448204252455645),
  (43, 0x30783031344609096f0923204c4154494e20534d414c4c204c4554544552204f2057495448204252455645),
  (0, 0x0),
  (52, 0x30783031353009094f0923204c4154494e204341504954414c204c4554544552204f205749544820444f55424c45204143555445)]

/-- Lines 337-436 of table/legacy/unicode.tbl. -/
def legacy_unicode_5 : List (Nat × Nat) := [
  (50, 0x30783031353109096f0923204c4154494e20534d414c4c204c4554544552204f205749544820444f55424c45204143555445),
  (38, 0x30783031353209094f450923204c4154494e204341504954414c204c49474154555245204f45),
  (36, 0x30783031353309096f650923204c4154494e20534d414c4c204c49474154555245204f45),
  (45, 0x3078303135340909520923204c4154494e204341504954414c204c455454455220522057495448204143555445),
  (43, 0x3078303135350909720923204c4154494e20534d414c4c204c455454455220522057495448204143555445),
  (47, 0x3078303135360909520923204c4154494e204341504954414c204c45545445522052205749544820434544494c4c41),
  (45, 0x3078303135370909720923204c4154494e20534d414c4c204c45545445522052205749544820434544494c4c41),
  (45, 0x3078303135380909520923204c4154494e204341504954414c204c455454455220522057495448204341524f4e),
  (43, 0x3078303135390909720923204c4154494e20534d414c4c204c455454455220522057495448204341524f4e),
  (45, 0x3078303135410909530923204c4154494e204341504954414c204c455454455220532057495448204143555445),
  (43, 0x3078303135420909730923204c4154494e20534d414c4c204c455454455220532057495448204143555445),
  (50, 0x3078303135430909530923204c4154494e204341504954414c204c4554544552205320574954482043495243554d464c4558),
  (48, 0x3078303135440909730923204c4154494e20534d414c4c204c4554544552205320574954482043495243554d464c4558),
  (47, 0x3078303135450909530923204c4154494e204341504954414c204c45545445522053205749544820434544494c4c41),
  (45, 0x3078303135460909730923204c4154494e20534d414c4c204c45545445522053205749544820434544494c4c41),
  (0, 0x0),
  (45, 0x3078303136300909530923204c4154494e204341504954414c204c455454455220532057495448204341524f4e),
  (43, 0x3078303136310909730923204c4154494e20534d414c4c204c455454455220532057495448204341524f4e),
  (47, 0x3078303136320909540923204c4154494e204341504954414c204c45545445522054205749544820434544494c4c41),
  (45, 0x3078303136330909740923204c4154494e20534d414c4c204c45545445522054205749544820434544494c4c41),
  (45, 0x3078303136340909540923204c4154494e204341504954414c204c455454455220542057495448204341524f4e),
  (43, 0x3078303136350909740923204c4154494e20534d414c4c204c455454455220542057495448204341524f4e),
  (46, 0x3078303136360909540923204c4154494e204341504954414c204c455454455220542057495448205354524f4b45),
  (44, 0x3078303136370909740923204c4154494e20534d414c4c204c455454455220542057495448205354524f4b45),
  (45, 0x3078303136380909550923204c4154494e204341504954414c204c4554544552205520574954482054494c4445),
  (43, 0x3078303136390909750923204c4154494e20534d414c4c204c4554544552205520574954482054494c4445),
  (46, 0x3078303136410909550923204c4154494e204341504954414c204c455454455220552057495448204d4143524f4e),
  (44, 0x3078303136420909750923204c4154494e20534d414c4c204c455454455220552057495448204d4143524f4e),
  (45, 0x3078303136430909550923204c4154494e204341504954414c204c455454455220552057495448204252455645),
  (43, 0x3078303136440909750923204c4154494e20534d414c4c204c455454455220552057495448204252455645),
  (50, 0x3078303136450909550923204c4154494e204341504954414c204c4554544552205520574954482052494e472041424f5645),
  (48, 0x3078303136460909750923204c4154494e20534d414c4c204c4554544552205520574954482052494e472041424f5645),
  (0, 0x0),
  (52, 0x3078303137300909550923204c4154494e204341504954414c204c45545445522055205749544820444f55424c45204143555445),
  (50, 0x3078303137310909750923204c4154494e20534d414c4c204c45545445522055205749544820444f55424c45204143555445),
  (46, 0x3078303137320909550923204c4154494e204341504954414c204c455454455220552057495448204f474f4e454b),
  (44, 0x3078303137330909750923204c4154494e20534d414c4c204c455454455220552057495448204f474f4e454b),
  (50, 0x3078303137340909570923204c4154494e204341504954414c204c4554544552205720574954482043495243554d464c4558),
  (48, 0x3078303137350909770923204c4154494e20534d414c4c204c4554544552205720574954482043495243554d464c4558),
  (50, 0x3078303137360909590923204c4154494e204341504954414c204c4554544552205920574954482043495243554d464c4558),
  (48, 0x3078303137370909790923204c4154494e20534d414c4c204c4554544552205920574954482043495243554d464c4558),
  (49, 0x3078303137380909590923204c4154494e204341504954414c204c45545445522059205749544820444941455245534953),
  (45, 0x30783031373909095a0923204c4154494e204341504954414c204c4554544552205a2057495448204143555445),
  (43, 0x30783031374109097a0923204c4154494e20534d414c4c204c4554544552205a2057495448204143555445),
  (49, 0x30783031374209095a0923204c4154494e204341504954414c204c4554544552205a205749544820444f542041424f5645),
  (47, 0x30783031374309097a0923204c4154494e20534d414c4c204c4554544552205a205749544820444f542041424f5645),
  (45, 0x30783031374409095a0923204c4154494e204341504954414c204c4554544552205a2057495448204341524f4e),
  (43, 0x30783031374509097a0923204c4154494e20534d414c4c204c4554544552205a2057495448204341524f4e),
  (37, 0x3078303137460909730923204c4154494e20534d414c4c204c4554544552204c4f4e472053),
  (0, 0x0),
  (1, 0x23),
  (34, 0x23204c6174696e20457874656e6465642042202d203078303138302d307830323446),
  (1, 0x23),
  (46, 0x232068747470733a2f2f7777772e756e69636f64652e6f72672f6368617274732f5044462f55303138302e706466),
  (1, 0x23),
  (0, 0x0),
  (44, 0x3078303138300909620923204c4154494e20534d414c4c204c455454455220422057495448205354524f4b45),
  (44, 0x3078303138310909420923204c4154494e204341504954414c204c45545445522042205749544820484f4f4b),
  (46, 0x3078303138320909420923204c4154494e204341504954414c204c45545445522042205749544820544f50424152),
  (44, 0x3078303138330909620923204c4154494e20534d414c4c204c45545445522042205749544820544f50424152),
  (41, 0x3078303138340909420923204c4154494e204341504954414c204c455454455220544f4e4520534958),
  (39, 0x3078303138350909620923204c4154494e20534d414c4c204c455454455220544f4e4520534958),
  (39, 0x30783031383609094f0923204c4154494e204341504954414c204c4554544552204f50454e204f),
  (44, 0x3078303138370909430923204c4154494e204341504954414c204c45545445522043205749544820484f4f4b),
  (42, 0x3078303138380909630923204c4154494e20534d414c4c204c45545445522043205749544820484f4f4b),
  (42, 0x3078303138390909440923204c4154494e204341504954414c204c4554544552204146524943414e2044),
  (44, 0x3078303138410909440923204c4154494e204341504954414c204c45545445522044205749544820484f4f4b),
  (46, 0x3078303138420909440923204c4154494e204341504954414c204c45545445522044205749544820544f50424152),
  (44, 0x3078303138430909640923204c4154494e20534d414c4c204c45545445522044205749544820544f50424152),
  (43, 0x30783031384409097a0923204c4154494e20534d414c4c204c4554544552205455524e45442044454c5441),
  (43, 0x3078303138450909450923204c4154494e204341504954414c204c45545445522052455645525345442045),
  (38, 0x3078303138460909450923204c4154494e204341504954414c204c4554544552205343485741),
  (0, 0x0),
  (39, 0x3078303139300909450923204c4154494e204341504954414c204c4554544552204f50454e2045),
  (44, 0x3078303139310909460923204c4154494e204341504954414c204c45545445522046205749544820484f4f4b),
  (42, 0x3078303139320909660923204c4154494e20534d414c4c204c45545445522046205749544820484f4f4b),
  (44, 0x3078303139330909470923204c4154494e204341504954414c204c45545445522047205749544820484f4f4b),
  (38, 0x3078303139340909590923204c4154494e204341504954414c204c45545445522047414d4d41),
  (34, 0x307830313935090968760923204c4154494e20534d414c4c204c4554544552204856),
  (37, 0x3078303139360909490923204c4154494e204341504954414c204c455454455220494f5441),
  (46, 0x3078303139370909490923204c4154494e204341504954414c204c455454455220492057495448205354524f4b45),
  (44, 0x30783031393809094b0923204c4154494e204341504954414c204c4554544552204b205749544820484f4f4b),
  (42, 0x30783031393909096b0923204c4154494e20534d414c4c204c4554544552204b205749544820484f4f4b),
  (41, 0x30783031394109096c0923204c4154494e20534d414c4c204c4554544552204c205749544820424152),
  (49, 0x30783031394209096c0923204c4154494e20534d414c4c204c4554544552204c414d4244412057495448205354524f4b45),
  (41, 0x3078303139430909770923204c4154494e204341504954414c204c4554544552205455524e4544204d),
  (49, 0x30783031394409094e0923204c4154494e204341504954414c204c4554544552204e2057495448204c45465420484f4f4b),
  (52, 0x30783031394509096e0923204c4154494e20534d414c4c204c4554544552204e2057495448204c4f4e47205249474854204c4547),
  (52, 0x30783031394609094f0923204c4154494e204341504954414c204c4554544552204f2057495448204d4944444c452054494c4445),
  (0, 0x0),
  (44, 0x30783031413009094f0923204c4154494e204341504954414c204c4554544552204f205749544820484f524e),
  (42, 0x30783031413109096f0923204c4154494e20534d414c4c204c4554544552204f205749544820484f524e),
  (36, 0x30783031413209094f490923204c4154494e204341504954414c204c4554544552204f49),
  (34, 0x30783031413309096f690923204c4154494e20534d414c4c204c4554544552204f49),
  (44, 0x3078303141340909500923204c4154494e204341504954414c204c45545445522050205749544820484f4f4b),
  (42, 0x3078303141350909700923204c4154494e20534d414c4c204c45545445522050205749544820484f4f4b),
  (28, 0x307830314136090959520923204c4154494e204c4554544552205952),
  (41, 0x3078303141370909530923204c4154494e204341504954414c204c455454455220544f4e452054574f),
  (39, 0x3078303141380909730923204c4154494e20534d414c4c204c455454455220544f4e452054574f),
  (37, 0x307830314139090953480923204c4154494e204341504954414c204c455454455220455348)]

/-- Lines 437-536 of table/legacy/unicode.tbl. -/
def legacy_unicode_6 : List (Nat × Nat) := [
  (43, 0x307830314141090973680923204c4154494e204c455454455220524556455253454420455348204c4f4f50),
  (50, 0x3078303141420909740923204c4154494e20534d414c4c204c4554544552205420574954482050414c4154414c20484f4f4b),
  (44, 0x3078303141430909540923204c4154494e204341504954414c204c45545445522054205749544820484f4f4b),
  (42, 0x3078303141440909740923204c4154494e20534d414c4c204c45545445522054205749544820484f4f4b),
  (54, 0x3078303141450909540923204c4154494e204341504954414c204c45545445522054205749544820524554524f464c455820484f4f4b),
  (44, 0x3078303141460909550923204c4154494e204341504954414c204c45545445522055205749544820484f524e),
  (0, 0x0),
  (42, 0x3078303142300909750923204c4154494e20534d414c4c204c45545445522055205749544820484f524e),
  (40, 0x3078303142310909590923204c4154494e204341504954414c204c455454455220555053494c4f4e),
  (44, 0x3078303142320909560923204c4154494e204341504954414c204c45545445522056205749544820484f4f4b),
  (44, 0x3078303142330909590923204c4154494e204341504954414c204c45545445522059205749544820484f4f4b),
  (42, 0x3078303142340909790923204c4154494e20534d414c4c204c45545445522059205749544820484f4f4b),
  (46, 0x30783031423509095a0923204c4154494e204341504954414c204c4554544552205a2057495448205354524f4b45),
  (44, 0x30783031423609097a0923204c4154494e20534d414c4c204c4554544552205a2057495448205354524f4b45),
  (37, 0x30783031423709095a480923204c4154494e204341504954414c204c455454455220455a48),
  (46, 0x30783031423809095a480923204c4154494e204341504954414c204c455454455220455a48205245564552534544),
  (44, 0x30783031423909097a680923204c4154494e20534d414c4c204c455454455220455a48205245564552534544),
  (45, 0x30783031424109097a680923204c4154494e20534d414c4c204c455454455220455a482057495448205441494c),
  (41, 0x3078303142420909647a0923204c4154494e204c45545445522054574f2057495448205354524f4b45),
  (42, 0x3078303142430909350923204c4154494e204341504954414c204c455454455220544f4e452046495645),
  (40, 0x3078303142440909350923204c4154494e20534d414c4c204c455454455220544f4e452046495645),
  (59, 0x307830314245090974730923204c4154494e204c455454455220494e56455254454420474c4f5454414c2053544f502057495448205354524f4b45),
  (29, 0x3078303142460909770923204c4154494e204c45545445522057594e4e),
  (0, 0x0),
  (47, 0x3078303143340909445a0923204c4154494e204341504954414c204c455454455220445a2057495448204341524f4e),
  (66, 0x3078303143350909447a0923204c4154494e204341504954414c204c45545445522044205749544820534d414c4c204c4554544552205a2057495448204341524f4e),
  (45, 0x3078303143360909647a0923204c4154494e20534d414c4c204c455454455220445a2057495448204341524f4e),
  (36, 0x30783031433709094c4a0923204c4154494e204341504954414c204c4554544552204c4a),
  (55, 0x30783031433809094c6a0923204c4154494e204341504954414c204c4554544552204c205749544820534d414c4c204c4554544552204a),
  (34, 0x30783031433909096c6a0923204c4154494e20534d414c4c204c4554544552204c4a),
  (36, 0x30783031434109094e4a0923204c4154494e204341504954414c204c4554544552204e4a),
  (55, 0x30783031434209094e6a0923204c4154494e204341504954414c204c4554544552204e205749544820534d414c4c204c4554544552204a),
  (34, 0x30783031434309096e6a0923204c4154494e20534d414c4c204c4554544552204e4a),
  (45, 0x3078303143440909410923204c4154494e204341504954414c204c455454455220412057495448204341524f4e),
  (43, 0x3078303143450909610923204c4154494e20534d414c4c204c455454455220412057495448204341524f4e),
  (45, 0x3078303143460909490923204c4154494e204341504954414c204c455454455220492057495448204341524f4e),
  (0, 0x0),
  (43, 0x3078303144300909690923204c4154494e20534d414c4c204c455454455220492057495448204341524f4e),
  (45, 0x30783031443109094f0923204c4154494e204341504954414c204c4554544552204f2057495448204341524f4e),
  (43, 0x30783031443209096f0923204c4154494e20534d414c4c204c4554544552204f2057495448204341524f4e),
  (45, 0x3078303144330909550923204c4154494e204341504954414c204c455454455220552057495448204341524f4e),
  (43, 0x3078303144340909750923204c4154494e20534d414c4c204c455454455220552057495448204341524f4e),
  (60, 0x3078303144350909550923204c4154494e204341504954414c204c4554544552205520574954482044494145524553495320414e44204d4143524f4e),
  (58, 0x3078303144360909750923204c4154494e20534d414c4c204c4554544552205520574954482044494145524553495320414e44204d4143524f4e),
  (59, 0x3078303144370909550923204c4154494e204341504954414c204c4554544552205520574954482044494145524553495320414e44204143555445),
  (57, 0x3078303144380909750923204c4154494e20534d414c4c204c4554544552205520574954482044494145524553495320414e44204143555445),
  (59, 0x3078303144390909550923204c4154494e204341504954414c204c4554544552205520574954482044494145524553495320414e44204341524f4e),
  (57, 0x3078303144410909750923204c4154494e20534d414c4c204c4554544552205520574954482044494145524553495320414e44204341524f4e),
  (59, 0x3078303144420909550923204c4154494e204341504954414c204c4554544552205520574954482044494145524553495320414e44204752415645),
  (57, 0x3078303144430909750923204c4154494e20534d414c4c204c4554544552205520574954482044494145524553495320414e44204752415645),
  (39, 0x3078303144440909650923204c4154494e20534d414c4c204c4554544552205455524e45442045),
  (60, 0x3078303144450909410923204c4154494e204341504954414c204c4554544552204120574954482044494145524553495320414e44204d4143524f4e),
  (58, 0x3078303144460909610923204c4154494e20534d414c4c204c4554544552204120574954482044494145524553495320414e44204d4143524f4e),
  (0, 0x0),
  (60, 0x3078303145300909410923204c4154494e204341504954414c204c45545445522041205749544820444f542041424f564520414e44204d4143524f4e),
  (58, 0x3078303145310909610923204c4154494e20534d414c4c204c45545445522041205749544820444f542041424f564520414e44204d4143524f4e),
  (48, 0x307830314532090941450923204c4154494e204341504954414c204c45545445522041452057495448204d4143524f4e),
  (46, 0x307830314533090961650923204c4154494e20534d414c4c204c45545445522041452057495448204d4143524f4e),
  (46, 0x3078303145340909470923204c4154494e204341504954414c204c455454455220472057495448205354524f4b45),
  (44, 0x3078303145350909670923204c4154494e20534d414c4c204c455454455220472057495448205354524f4b45),
  (45, 0x3078303145360909470923204c4154494e204341504954414c204c455454455220472057495448204341524f4e),
  (43, 0x3078303145370909670923204c4154494e20534d414c4c204c455454455220472057495448204341524f4e),
  (45, 0x30783031453809094b0923204c4154494e204341504954414c204c4554544552204b2057495448204341524f4e),
  (43, 0x30783031453909096b0923204c4154494e20534d414c4c204c4554544552204b2057495448204341524f4e),
  (46, 0x30783031454109094f0923204c4154494e204341504954414c204c4554544552204f2057495448204f474f4e454b),
  (44, 0x30783031454209096f0923204c4154494e20534d414c4c204c4554544552204f2057495448204f474f4e454b),
  (57, 0x30783031454309094f0923204c4154494e204341504954414c204c4554544552204f2057495448204f474f4e454b20414e44204d4143524f4e),
  (55, 0x30783031454409096f0923204c4154494e20534d414c4c204c4554544552204f2057495448204f474f4e454b20414e44204d4143524f4e),
  (48, 0x30783031454509095a480923204c4154494e204341504954414c204c455454455220455a482057495448204341524f4e),
  (46, 0x30783031454609097a680923204c4154494e20534d414c4c204c455454455220455a482057495448204341524f4e),
  (0, 0x0),
  (43, 0x30783031463009096a0923204c4154494e20534d414c4c204c4554544552204a2057495448204341524f4e),
  (36, 0x3078303146310909445a0923204c4154494e204341504954414c204c455454455220445a),
  (55, 0x3078303146320909447a0923204c4154494e204341504954414c204c45545445522044205749544820534d414c4c204c4554544552205a),
  (34, 0x3078303146330909647a0923204c4154494e20534d414c4c204c455454455220445a),
  (45, 0x3078303146340909470923204c4154494e204341504954414c204c455454455220472057495448204143555445),
  (43, 0x3078303146350909670923204c4154494e20534d414c4c204c455454455220472057495448204143555445),
  (39, 0x307830314636090948550923204c4154494e204341504954414c204c4554544552204857414952),
  (37, 0x3078303146370909570923204c4154494e204341504954414c204c45545445522057594e4e),
  (45, 0x30783031463809094e0923204c4154494e204341504954414c204c4554544552204e2057495448204752415645),
  (43, 0x30783031463909096e0923204c4154494e20534d414c4c204c4554544552204e2057495448204752415645),
  (60, 0x3078303146410909410923204c4154494e204341504954414c204c4554544552204120574954482052494e472041424f564520414e44204143555445),
  (58, 0x3078303146420909610923204c4154494e20534d414c4c204c4554544552204120574954482052494e472041424f564520414e44204143555445),
  (47, 0x307830314643090941450923204c4154494e204341504954414c204c45545445522041452057495448204143555445),
  (45, 0x307830314644090961650923204c4154494e20534d414c4c204c45545445522041452057495448204143555445),
  (56, 0x30783031464509094f0923204c4154494e204341504954414c204c4554544552204f2057495448205354524f4b4520414e44204143555445),
  (54, 0x30783031464609096f0923204c4154494e20534d414c4c204c4554544552204f2057495448205354524f4b4520414e44204143555445),
  (0, 0x0),
  (52, 0x3078303230300909410923204c4154494e204341504954414c204c45545445522041205749544820444f55424c45204752415645),
  (50, 0x3078303230310909610923204c4154494e20534d414c4c204c45545445522041205749544820444f55424c45204752415645),
  (54, 0x3078303230320909410923204c4154494e204341504954414c204c45545445522041205749544820494e564552544544204252455645),
  (52, 0x3078303230330909610923204c4154494e20534d414c4c204c45545445522041205749544820494e564552544544204252455645),
  (52, 0x3078303230340909450923204c4154494e204341504954414c204c45545445522045205749544820444f55424c45204752415645),
  (50, 0x3078303230350909650923204c4154494e20534d414c4c204c45545445522045205749544820444f55424c45204752415645),
  (54, 0x3078303230360909450923204c4154494e204341504954414c204c45545445522045205749544820494e564552544544204252455645),
  (52, 0x3078303230370909650923204c4154494e20534d414c4c204c45545445522045205749544820494e564552544544204252455645),
  (52, 0x3078303230380909490923204c4154494e204341504954414c204c45545445522049205749544820444f55424c45204752415645),
  (50, 0x3078303230390909690923204c4154494e20534d414c4c204c45545445522049205749544820444f55424c45204752415645),
  (54, 0x3078303230410909490923204c4154494e204341504954414c204c45545445522049205749544820494e564552544544204252455645),
  (52, 0x3078303230420909690923204c4154494e20534d414c4c204c45545445522049205749544820494e564552544544204252455645)]

/-- Lines 537-636 of table/legacy/unicode.tbl. -/
def legacy_unicode_7 : List (Nat × Nat) := [
  (52, 0x30783032304309094f0923204c4154494e204341504954414c204c4554544552204f205749544820444f55424c45204752415645),
  (50, 0x30783032304409096f0923204c4154494e20534d414c4c204c4554544552204f205749544820444f55424c45204752415645),
  (54, 0x30783032304509094f0923204c4154494e204341504954414c204c4554544552204f205749544820494e564552544544204252455645),
  (52, 0x30783032304609096f0923204c4154494e20534d414c4c204c4554544552204f205749544820494e564552544544204252455645),
  (0, 0x0),
  (52, 0x3078303231300909520923204c4154494e204341504954414c204c45545445522052205749544820444f55424c45204752415645),
  (50, 0x3078303231310909720923204c4154494e20534d414c4c204c45545445522052205749544820444f55424c45204752415645),
  (54, 0x3078303231320909520923204c4154494e204341504954414c204c45545445522052205749544820494e564552544544204252455645),
  (52, 0x3078303231330909720923204c4154494e20534d414c4c204c45545445522052205749544820494e564552544544204252455645),
  (52, 0x3078303231340909550923204c4154494e204341504954414c204c45545445522055205749544820444f55424c45204752415645),
  (50, 0x3078303231350909750923204c4154494e20534d414c4c204c45545445522055205749544820444f55424c45204752415645),
  (54, 0x3078303231360909550923204c4154494e204341504954414c204c45545445522055205749544820494e564552544544204252455645),
  (52, 0x3078303231370909750923204c4154494e20534d414c4c204c45545445522055205749544820494e564552544544204252455645),
  (51, 0x3078303231380909530923204c4154494e204341504954414c204c45545445522053205749544820434f4d4d412042454c4f57),
  (49, 0x3078303231390909730923204c4154494e20534d414c4c204c45545445522053205749544820434f4d4d412042454c4f57),
  (51, 0x3078303231410909540923204c4154494e204341504954414c204c45545445522054205749544820434f4d4d412042454c4f57),
  (49, 0x3078303231420909740923204c4154494e20534d414c4c204c45545445522054205749544820434f4d4d412042454c4f57),
  (37, 0x3078303231430909590923204c4154494e204341504954414c204c455454455220594f4748),
  (35, 0x3078303231440909790923204c4154494e20534d414c4c204c455454455220594f4748),
  (45, 0x3078303231450909480923204c4154494e204341504954414c204c455454455220482057495448204341524f4e),
  (43, 0x3078303231460909680923204c4154494e20534d414c4c204c455454455220482057495448204341524f4e),
  (0, 0x0),
  (54, 0x30783032323009094e0923204c4154494e204341504954414c204c4554544552204e2057495448204c4f4e47205249474854204c4547),
  (42, 0x3078303232310909640923204c4154494e20534d414c4c204c455454455220442057495448204355524c),
  (36, 0x30783032323209094f550923204c4154494e204341504954414c204c4554544552204f55),
  (34, 0x30783032323309096f750923204c4154494e20534d414c4c204c4554544552204f55),
  (44, 0x30783032323409095a0923204c4154494e204341504954414c204c4554544552205a205749544820484f4f4b),
  (42, 0x30783032323509097a0923204c4154494e20534d414c4c204c4554544552205a205749544820484f4f4b),
  (49, 0x3078303232360909410923204c4154494e204341504954414c204c45545445522041205749544820444f542041424f5645),
  (47, 0x3078303232370909610923204c4154494e20534d414c4c204c45545445522041205749544820444f542041424f5645),
  (47, 0x3078303232380909450923204c4154494e204341504954414c204c45545445522045205749544820434544494c4c41),
  (45, 0x3078303232390909650923204c4154494e20534d414c4c204c45545445522045205749544820434544494c4c41),
  (60, 0x30783032324109094f0923204c4154494e204341504954414c204c4554544552204f20574954482044494145524553495320414e44204d4143524f4e),
  (58, 0x30783032324209096f0923204c4154494e20534d414c4c204c4554544552204f20574954482044494145524553495320414e44204d4143524f4e),
  (56, 0x30783032324309094f0923204c4154494e204341504954414c204c4554544552204f20574954482054494c444520414e44204d4143524f4e),
  (54, 0x30783032324409096f0923204c4154494e20534d414c4c204c4554544552204f20574954482054494c444520414e44204d4143524f4e),
  (49, 0x30783032324509094f0923204c4154494e204341504954414c204c4554544552204f205749544820444f542041424f5645),
  (47, 0x30783032324609096f0923204c4154494e20534d414c4c204c4554544552204f205749544820444f542041424f5645),
  (0, 0x0),
  (60, 0x30783032333009094f0923204c4154494e204341504954414c204c4554544552204f205749544820444f542041424f564520414e44204d4143524f4e),
  (58, 0x30783032333109096f0923204c4154494e20534d414c4c204c4554544552204f205749544820444f542041424f564520414e44204d4143524f4e),
  (46, 0x3078303233320909590923204c4154494e204341504954414c204c455454455220592057495448204d4143524f4e),
  (44, 0x3078303233330909790923204c4154494e20534d414c4c204c455454455220592057495448204d4143524f4e),
  (42, 0x30783032333409096c0923204c4154494e20534d414c4c204c4554544552204c2057495448204355524c),
  (42, 0x30783032333509096e0923204c4154494e20534d414c4c204c4554544552204e2057495448204355524c),
  (42, 0x3078303233360909740923204c4154494e20534d414c4c204c455454455220542057495448204355524c),
  (40, 0x30783032333709096a0923204c4154494e20534d414c4c204c455454455220444f544c455353204a),
  (42, 0x307830323338090964620923204c4154494e20534d414c4c204c45545445522044422044494752415048),
  (42, 0x307830323339090971700923204c4154494e20534d414c4c204c45545445522051502044494752415048),
  (46, 0x3078303233410909410923204c4154494e204341504954414c204c455454455220412057495448205354524f4b45),
  (46, 0x3078303233420909430923204c4154494e204341504954414c204c455454455220432057495448205354524f4b45),
  (44, 0x3078303233430909630923204c4154494e20534d414c4c204c455454455220432057495448205354524f4b45),
  (43, 0x30783032334409094c0923204c4154494e204341504954414c204c4554544552204c205749544820424152),
  (55, 0x3078303233450909540923204c4154494e204341504954414c204c45545445522054205749544820444941474f4e414c205354524f4b45),
  (48, 0x3078303233460909730923204c4154494e20534d414c4c204c455454455220532057495448205357415348205441494c),
  (0, 0x0),
  (48, 0x30783032343009097a0923204c4154494e20534d414c4c204c4554544552205a2057495448205357415348205441494c),
  (46, 0x3078303234330909420923204c4154494e204341504954414c204c455454455220422057495448205354524f4b45),
  (38, 0x3078303234340909550923204c4154494e204341504954414c204c4554544552205520424152),
  (41, 0x30783032343509095e0923204c4154494e204341504954414c204c4554544552205455524e45442056),
  (46, 0x3078303234360909450923204c4154494e204341504954414c204c455454455220452057495448205354524f4b45),
  (44, 0x3078303234370909650923204c4154494e20534d414c4c204c455454455220452057495448205354524f4b45),
  (46, 0x30783032343809094a0923204c4154494e204341504954414c204c4554544552204a2057495448205354524f4b45),
  (44, 0x30783032343909096a0923204c4154494e20534d414c4c204c4554544552204a2057495448205354524f4b45),
  (55, 0x3078303234410909710923204c4154494e204341504954414c204c455454455220534d414c4c2051205749544820484f4f4b205441494c),
  (47, 0x3078303234420909710923204c4154494e20534d414c4c204c45545445522051205749544820484f4f4b205441494c),
  (46, 0x3078303234430909520923204c4154494e204341504954414c204c455454455220522057495448205354524f4b45),
  (44, 0x3078303234440909720923204c4154494e20534d414c4c204c455454455220522057495448205354524f4b45),
  (46, 0x3078303234450909590923204c4154494e204341504954414c204c455454455220592057495448205354524f4b45),
  (44, 0x3078303234460909790923204c4154494e20534d414c4c204c455454455220592057495448205354524f4b45),
  (0, 0x0),
  (1, 0x23),
  (5, 0x23202e2e2e),
  (1, 0x23),
  (0, 0x0),
  (45, 0x30783032433609095e0923204d4f444946494552204c45545445522043495243554d464c455820414343454e54),
  (23, 0x30783032444309097e092320534d414c4c2054494c4445),
  (0, 0x0),
  (1, 0x23),
  (36, 0x2320477265656b20616e6420436f70746963202d20307830333730e28093307830334646),
  (1, 0x23),
  (42, 0x232068747470733a2f2f756e69636f64652e6f72672f6368617274732f5044462f55303337302e706466),
  (1, 0x23),
  (0, 0x0),
  (36, 0x307830334131090950092320475245454b204341504954414c204c45545445522052484f),
  (0, 0x0),
  (34, 0x307830334331090970092320475245454b20534d414c4c204c45545445522052484f),
  (0, 0x0),
  (1, 0x23),
  (26, 0x2320546169204c65202d20307831393530e28093307831393746),
  (1, 0x23),
  (42, 0x232068747470733a2f2f756e69636f64652e6f72672f6368617274732f5044462f55313935302e706466),
  (1, 0x23),
  (0, 0x0),
  (33, 0x307831393532202020202020096e092320544149204c45204c4554544552204e47),
  (33, 0x3078313935392020202020200975092320544149204c45204c4554544552205041),
  (32, 0x307831393633202020202020096c092320544149204c45204c45545445522041),
  (37, 0x3078313937312020202020200965092320544149204c45204c455454455220544f4e452d33),
  (37, 0x3078313937342020202020200963092320544149204c45204c455454455220544f4e452d36),
  (0, 0x0)]

/-- Lines 637-736 of table/legacy/unicode.tbl. -/
def legacy_unicode_8 : List (Nat × Nat) := [
  (1, 0x23),
  (5, 0x23202e2e2e),
  (1, 0x23),
  (0, 0x0),
  (41, 0x307831453945090953530923204c4154494e204341504954414c204c45545445522053484152502053),
  (0, 0x0),
  (1, 0x23),
  (37, 0x232047656e6572616c2050756e6374756174696f6e202d203078323030302d307832303646),
  (1, 0x23),
  (42, 0x232068747470733a2f2f756e69636f64652e6f72672f6368617274732f5044462f55323030302e706466),
  (1, 0x23),
  (0, 0x0),
  (21, 0x3078323030300909222022092320454e2051554144),
  (21, 0x3078323030310909222022092320454d2051554144),
  (22, 0x3078323030320909222022092320454e205350414345),
  (22, 0x3078323030330909222022092320454d205350414345),
  (32, 0x307832303034090922202209232054485245452d5045522d454d205350414345),
  (31, 0x3078323030350909222022092320464f55522d5045522d454d205350414345),
  (30, 0x30783230303609092220220923205349582d5045522d454d205350414345),
  (26, 0x3078323030370909222022092320464947555245205350414345),
  (31, 0x307832303038090922202209232050554e4354554154494f4e205350414345),
  (24, 0x30783230303909092220220923205448494e205350414345),
  (24, 0x307832303041090922202209232048414952205350414345),
  (29, 0x307832303042090922220923205a45524f205749445448205350414345),
  (34, 0x307832303043090922220923205a45524f205749445448204e4f4e2d4a4f494e4552),
  (28, 0x307832303044090922220923205a45524f204e4f4e2d4a4f494e4552),
  (31, 0x307832303045090922220923204c4546542d544f2d5249474854204d41524b),
  (31, 0x3078323030460909222209232052494748542d544f2d4c454654204d41524b),
  (0, 0x0),
  (18, 0x30783230313009092d09232048595048454e),
  (31, 0x30783230313109092d0923204e4f4e2d425245414b494e472048595048454e),
  (23, 0x30783230313209092d0923204649475552452044415348),
  (19, 0x30783230313309092d092320454e2044415348),
  (19, 0x30783230313409092d092320454d2044415348),
  (26, 0x30783230313509092d092320484f52495a4f4e54414c20424152),
  (27, 0x30783230313709095f092320444f55424c45204c4f57204c494e45),
  (40, 0x30783230313809092227220923204c4546542053494e474c452051554f544154494f4e204d41524b),
  (41, 0x307832303139090922272209232052494748542053494e474c452051554f544154494f4e204d41524b),
  (41, 0x307832303141090922272209232053494e474c45204c4f572d392051554f544154494f4e204d41524b),
  (51, 0x307832303142090922272209232053494e474c4520484947482d52455645525345442d392051554f544154494f4e204d41524b),
  (40, 0x30783230314309092722270923204c45465420444f55424c452051554f544154494f4e204d41524b),
  (41, 0x3078323031440909272227092320524947485420444f55424c452051554f544154494f4e204d41524b),
  (41, 0x3078323031450909272227092320444f55424c45204c4f572d392051554f544154494f4e204d41524b),
  (51, 0x3078323031460909272227092320444f55424c4520484947482d52455645525345442d392051554f544154494f4e204d41524b),
  (0, 0x0),
  (18, 0x30783230323009092b092320444147474552),
  (26, 0x30783230323109092b2b092320444f55424c4520444147474552),
  (18, 0x30783230323209092a09232042554c4c4554),
  (26, 0x30783230323409092e0923204f4e4520444f54204c4541444552),
  (27, 0x30783230323509092e2e09232054574f20444f54204c4541444552),
  (33, 0x30783230323609092e2e2e092320484f52495a4f4e54414c20454c4c4950534953),
  (29, 0x30783230323709092e09232048595048454e4154494f4e20504f494e54),
  (35, 0x30783230324609092220220923204e4152524f57204e4f2d425245414b205350414345),
  (0, 0x0),
  (26, 0x307832303330090925092320504552204d494c4c45205349474e),
  (33, 0x3078323033310909250923205045522054454e2054484f5553414e44205349474e),
  (19, 0x30783230333209092227220923205052494d45),
  (27, 0x307832303333090922272722092320444f55424c45205052494d45),
  (28, 0x30783230333409092227272722092320545249504c45205052494d45),
  (26, 0x3078323033350909600923205245564552534544205052494d45),
  (34, 0x30783230333609096060092320524556455253454420444f55424c45205052494d45),
  (35, 0x3078323033370909606060092320524556455253454420545249504c45205052494d45),
  (17, 0x30783230333809095e0923204341524554),
  (26, 0x30783230334209092a0923205245464552454e4345204d41524b),
  (36, 0x30783230334309092121092320444f55424c45204558434c414d4154494f4e204d41524b),
  (23, 0x30783230334409093f092320494e544552524f42414e47),
  (20, 0x30783230334509092d0923204f5645524c494e45),
  (20, 0x30783230334609095f092320554e444552544945),
  (0, 0x0),
  (25, 0x30783230343009092d09232043484152414354455220544945),
  (33, 0x30783230343109095e092320434152455420494e53455254494f4e20504f494e54),
  (22, 0x30783230343209092a2a2a092320415354455249534d),
  (25, 0x30783230343309092d09232048595048454e2042554c4c4554),
  (43, 0x30783230343509092d5b0923204c4546542053515541524520425241434b45542057495448205155494c4c),
  (44, 0x30783230343609095d2d09232052494748542053515541524520425241434b45542057495448205155494c4c),
  (33, 0x30783230343709093f3f092320444f55424c45205155455354494f4e204d41524b),
  (38, 0x30783230343809093f210923205155455354494f4e204558434c414d4154494f4e204d41524b),
  (38, 0x3078323034390909213f0923204558434c414d4154494f4e205155455354494f4e204d41524b),
  (28, 0x3078323034410909260923205449524f4e49414e205349474e204554),
  (36, 0x30783230344209095f70705f09232052455645525345442050494c43524f57205349474e),
  (24, 0x30783230344509092a0923204c4f5720415354455249534b),
  (31, 0x30783230344609095b2909232052455645525345442053454d49434f4c4f4e),
  (0, 0x0),
  (45, 0x30783230353109092a2a09232054574f20415354455249534b5320414c49474e454420564552544943414c4c59),
  (33, 0x307832303532090925092320434f4d4d45524349414c204d494e5553205349474e),
  (22, 0x30783230353309097e0923205357494e472044415348),
  (29, 0x30783230353409095f092320494e56455254454420554e444552544945),
  (35, 0x30783230353509092a092320464c4f5745522050554e4354554154494f4e204d41524b),
  (35, 0x30783230353609092e2e2e092320544852454520444f542050554e4354554154494f4e),
  (32, 0x3078323035370909222727272722092320515541445255504c45205052494d45),
  (35, 0x30783230353809092e2e2e2e092320464f555220444f542050554e4354554154494f4e),
  (36, 0x30783230353909092e2e2e2e2e0923204649564520444f542050554e4354554154494f4e),
  (32, 0x30783230354109092e2e09232054574f20444f542050554e4354554154494f4e),
  (28, 0x30783230354209092e2e2e2e092320464f555220444f54204d41524b),
  (20, 0x30783230354409093a092320545249434f4c4f4e),
  (30, 0x30783230354509093a092320564552544943414c20464f555220444f5453),
  (39, 0x30783230354609092220220923204d454449554d204d415448454d41544943414c205350414345),
  (0, 0x0),
  (25, 0x3078323036300909222022092320574f5244204a4f494e4552),
  (0, 0x0)]

/-- Lines 737-784 of table/legacy/unicode.tbl. -/
def legacy_unicode_9 : List (Nat × Nat) := [
  (1, 0x23),
  (1, 0x23),
  (36, 0x232043757272656e63792053796d626f6c73202d20307832304130e28093307832304346),
  (1, 0x23),
  (46, 0x232068747470733a2f2f7777772e756e69636f64652e6f72672f6368617274732f5044462f55323041302e706466),
  (1, 0x23),
  (0, 0x0),
  (32, 0x30783230413009094543550923204555524f2d43555252454e4359205349474e),
  (23, 0x3078323041310909434c092320434f4c4f4e205349474e),
  (26, 0x307832304132090943720923204352555a4549524f205349474e),
  (30, 0x307832304133090946460923204652454e4348204652414e43205349474e),
  (21, 0x30783230413409094c0923204c495241205349474e),
  (23, 0x30783230413509096d696c0923204d494c4c205349474e),
  (22, 0x30783230413609094e0923204e41495241205349474e),
  (25, 0x3078323041370909507473092320504553455441205349474e),
  (23, 0x307832304138090952730923205255504545205349474e),
  (20, 0x307832304139090957092320574f4e205349474e),
  (28, 0x30783230414109094e530923204e45572053484551454c205349474e),
  (21, 0x307832304142090944092320444f4e47205349474e),
  (23, 0x30783230414309094555520923204555524f205349474e),
  (20, 0x30783230414409094b0923204b4950205349474e),
  (23, 0x30783230414509095409232054554752494b205349474e),
  (25, 0x3078323041460909447209232044524143484d41205349474e),
  (0, 0x0),
  (21, 0x3078323042310909240923205045534f205349474e),
  (25, 0x3078323042320909477309232047554152414e49205349474e),
  (21, 0x30783230423509094309232043454449205349474e),
  (28, 0x30783230424209094d0923204e4f52444943204d41524b205349474e),
  (28, 0x30783230424609095f6274635f092320424954434f494e205349474e),
  (0, 0x0),
  (1, 0x23),
  (5, 0x23202e2e2e),
  (1, 0x23),
  (0, 0x0),
  (30, 0x30783231323209095f746d5f0923205452414445204d41524b205349474e),
  (0, 0x0),
  (1, 0x23),
  (5, 0x23202e2e2e),
  (1, 0x23),
  (0, 0x0),
  (19, 0x30783130333438090968750923204857414952),
  (0, 0x0),
  (1, 0x23),
  (17, 0x2320682f7420746f20686f6d6562726577),
  (1, 0x23),
  (0, 0x0),
  (30, 0x3078316633376109095f626565725f092320696e206120747265652e2e2e),
  (0, 0x0)]

/-- Lines 785-785 of table/legacy/unicode.tbl. -/
def legacy_unicode_10 : List (Nat × Nat) := [
  (3, 0x656e64)]

/-- Lines 786-790 of table/legacy/unicode.tbl. -/
def legacy_unicode_11 : List (Nat × Nat) := [
  (0, 0x0),
  (1, 0x23),
  (29, 0x23204765726d616e20737065636966696320636f6e76657273696f6e73),
  (1, 0x23),
  (0, 0x0)]

/-- Lines 791-791 of table/legacy/unicode.tbl. -/
def legacy_unicode_12 : List (Nat × Nat) := [
  (9, 0x737461727409096465)]

/-- Lines 792-800 of table/legacy/unicode.tbl. -/
def legacy_unicode_13 : List (Nat × Nat) := [
  (0, 0x0),
  (47, 0x307830304334090941650923204c4154494e204341504954414c204c45545445522041205749544820554d4c415554),
  (47, 0x30783030443609094f650923204c4154494e204341504954414c204c4554544552204f205749544820554d4c415554),
  (47, 0x307830304443090955650923204c4154494e204341504954414c204c45545445522055205749544820554d4c415554),
  (0, 0x0),
  (45, 0x307830304534090961650923204c4154494e20534d414c4c204c45545445522041205749544820554d4c415554),
  (45, 0x30783030463609096f650923204c4154494e20534d414c4c204c4554544552204f205749544820554d4c415554),
  (45, 0x307830304643090975650923204c4154494e20534d414c4c204c45545445522055205749544820554d4c415554),
  (0, 0x0)]

/-- Lines 801-801 of table/legacy/unicode.tbl. -/
def legacy_unicode_14 : List (Nat × Nat) := [
  (3, 0x656e64)]

/-- The parts between the first `start` and the first `end` of table/legacy/unicode.tbl, lines 37-784. -/
def legacy_unicode_body : List (List (Nat × Nat)) := [
  legacy_unicode_2, legacy_unicode_3, legacy_unicode_4, legacy_unicode_5, legacy_unicode_6, legacy_unicode_7,
  legacy_unicode_8, legacy_unicode_9]

/-- All parts of table/legacy/unicode.tbl, lines 1-801. -/
def legacy_unicode_parts : List (List (Nat × Nat)) := legacy_unicode_0 :: legacy_unicode_1 :: (legacy_unicode_body ++ [
  legacy_unicode_10, legacy_unicode_11, legacy_unicode_12, legacy_unicode_13, legacy_unicode_14])

/-- The file table/legacy/unicode.tbl, lines 1-801. -/
def legacy_unicode : Bytes := packedFile legacy_unicode_parts.flatten

/-- Lines 1-17 of table/legacy/unidecode.tbl. -/
def legacy_unidecode_0 : List (Nat × Nat) := [
  (1, 0x23),
  (72, 0x23204920636c61696d206e6f20636f70797269676874206f76657220746869732066696c653b2074686520636f6e74656e747320617265203130302520646572697661746976652e),
  (41, 0x23202d20446f756720486172706c65203c6465746f782e64686172706c6540676d61696c2e636f6d3e),
  (1, 0x23),
  (52, 0x2320546869732066696c652069732067656e6572617465642066726f6d2074686520666f6c6c6f77696e6720736f75726365733a),
  (60, 0x23202d2068747470733a2f2f7777772e756e69636f64652e6f72672f5075626c69632f352e322e302f7563642f556e69636f6465446174612e747874),
  (44, 0x23202d2068747470733a2f2f6d6574616370616e2e6f72672f706f642f546578743a3a556e696465636f6465),
  (43, 0x23202d2068747470733a2f2f6769746875622e636f6d2f42656861742f5472616e736c6974657261746f72),
  (1, 0x23),
  (37, 0x232054686520636f646520746f2067656e6572617465206974206c6976657320686572653a),
  (52, 0x23202d2068747470733a2f2f6769746875622e636f6d2f64686172706c652f6465746f782d68656c7065722f746573742e706870),
  (1, 0x23),
  (0, 0x0),
  (53, 0x232042656861745c5472616e736c6974657261746f725c53796e63546f6f6c3a3a4c49425f56455253494f4e203d2027312e323727),
  (0, 0x0),
  (10, 0x64656661756c7409095f),
  (0, 0x0)]

/-- Lines 18-18 of table/legacy/unidecode.tbl. -/
def legacy_unidecode_1 : List (Nat × Nat) := [
  (5, 0x7374617274)]

/-- Lines 19-118 of table/legacy/unidecode.tbl. -/
def legacy_unidecode_2 : List (Nat × Nat) := [
  (0, 0x0),
  (1, 0x23),
  (29, 0x2320436861726163746572732030783030303020746f20307830304646),
  (1, 0x23),
  (0, 0x0),
  (19, 0x30783030323009092220220923205350414345),
  (28, 0x3078303032310909210923204558434c414d4154494f4e204d41524b),
  (28, 0x307830303232090927222709232051554f544154494f4e204d41524b),
  (23, 0x3078303032330909230923204e554d424552205349474e),
  (23, 0x307830303234090924092320444f4c4c4152205349474e),
  (24, 0x30783030323509092509232050455243454e54205349474e),
  (21, 0x307830303236090926092320414d50455253414e44),
  (24, 0x307830303237090922272209232041504f5354524f504845),
  (28, 0x3078303032380909280923204c45465420504152454e544845534953),
  (29, 0x307830303239090929092320524947485420504152454e544845534953),
  (20, 0x30783030324109092a092320415354455249534b),
  (21, 0x30783030324209092b092320504c5553205349474e),
  (17, 0x30783030324309092c092320434f4d4d41),
  (24, 0x30783030324409092d09232048595048454e2d4d494e5553),
  (21, 0x30783030324509092e09232046554c4c2053544f50),
  (19, 0x30783030324609092f092320534f4c49445553),
  (0, 0x0),
  (22, 0x3078303033300909300923204449474954205a45524f),
  (21, 0x3078303033310909310923204449474954204f4e45),
  (21, 0x30783030333209093209232044494749542054574f),
  (23, 0x3078303033330909330923204449474954205448524545),
  (22, 0x307830303334090934092320444947495420464f5552),
  (22, 0x30783030333509093509232044494749542046495645),
  (21, 0x307830303336090936092320444947495420534958),
  (23, 0x307830303337090937092320444947495420534556454e),
  (23, 0x3078303033380909380923204449474954204549474854),
  (22, 0x3078303033390909390923204449474954204e494e45),
  (17, 0x30783030334109093a092320434f4c4f4e),
  (21, 0x30783030334209093b09232053454d49434f4c4f4e),
  (26, 0x30783030334309093c0923204c4553532d5448414e205349474e),
  (23, 0x30783030334409093d092320455155414c53205349474e),
  (29, 0x30783030334509093e092320475245415445522d5448414e205349474e),
  (25, 0x30783030334609093f0923205155455354494f4e204d41524b),
  (0, 0x0),
  (25, 0x307830303430090940092320434f4d4d45524349414c204154),
  (34, 0x3078303034310909410923204c4154494e204341504954414c204c45545445522041),
  (34, 0x3078303034320909420923204c4154494e204341504954414c204c45545445522042),
  (34, 0x3078303034330909430923204c4154494e204341504954414c204c45545445522043),
  (34, 0x3078303034340909440923204c4154494e204341504954414c204c45545445522044),
  (34, 0x3078303034350909450923204c4154494e204341504954414c204c45545445522045),
  (34, 0x3078303034360909460923204c4154494e204341504954414c204c45545445522046),
  (34, 0x3078303034370909470923204c4154494e204341504954414c204c45545445522047),
  (34, 0x3078303034380909480923204c4154494e204341504954414c204c45545445522048),
  (34, 0x3078303034390909490923204c4154494e204341504954414c204c45545445522049),
  (34, 0x30783030344109094a0923204c4154494e204341504954414c204c4554544552204a),
  (34, 0x30783030344209094b0923204c4154494e204341504954414c204c4554544552204b),
  (34, 0x30783030344309094c0923204c4154494e204341504954414c204c4554544552204c),
  (34, 0x30783030344409094d0923204c4154494e204341504954414c204c4554544552204d),
  (34, 0x30783030344509094e0923204c4154494e204341504954414c204c4554544552204e),
  (34, 0x30783030344609094f0923204c4154494e204341504954414c204c4554544552204f),
  (0, 0x0),
  (34, 0x3078303035300909500923204c4154494e204341504954414c204c45545445522050),
  (34, 0x3078303035310909510923204c4154494e204341504954414c204c45545445522051),
  (34, 0x3078303035320909520923204c4154494e204341504954414c204c45545445522052),
  (34, 0x3078303035330909530923204c4154494e204341504954414c204c45545445522053),
  (34, 0x3078303035340909540923204c4154494e204341504954414c204c45545445522054),
  (34, 0x3078303035350909550923204c4154494e204341504954414c204c45545445522055),
  (34, 0x3078303035360909560923204c4154494e204341504954414c204c45545445522056),
  (34, 0x3078303035370909570923204c4154494e204341504954414c204c45545445522057),
  (34, 0x3078303035380909580923204c4154494e204341504954414c204c45545445522058),
  (34, 0x3078303035390909590923204c4154494e204341504954414c204c45545445522059),
  (34, 0x30783030354109095a0923204c4154494e204341504954414c204c4554544552205a),
  (31, 0x30783030354209095b0923204c4546542053515541524520425241434b4554),
  (27, 0x30783030354309095c0923205245564552534520534f4c49445553),
  (32, 0x30783030354409095d09232052494748542053515541524520425241434b4554),
  (29, 0x30783030354509095e09232043495243554d464c455820414343454e54),
  (20, 0x30783030354609095f0923204c4f57204c494e45),
  (0, 0x0),
  (24, 0x307830303630090960092320475241564520414343454e54),
  (32, 0x3078303036310909610923204c4154494e20534d414c4c204c45545445522041),
  (32, 0x3078303036320909620923204c4154494e20534d414c4c204c45545445522042),
  (32, 0x3078303036330909630923204c4154494e20534d414c4c204c45545445522043),
  (32, 0x3078303036340909640923204c4154494e20534d414c4c204c45545445522044),
  (32, 0x3078303036350909650923204c4154494e20534d414c4c204c45545445522045),
  (32, 0x3078303036360909660923204c4154494e20534d414c4c204c45545445522046),
  (32, 0x3078303036370909670923204c4154494e20534d414c4c204c45545445522047),
  (32, 0x3078303036380909680923204c4154494e20534d414c4c204c45545445522048),
  (32, 0x3078303036390909690923204c4154494e20534d414c4c204c45545445522049),
  (32, 0x30783030364109096a0923204c4154494e20534d414c4c204c4554544552204a),
  (32, 0x30783030364209096b0923204c4154494e20534d414c4c204c4554544552204b),
  (32, 0x30783030364309096c0923204c4154494e20534d414c4c204c4554544552204c),
  (32, 0x30783030364409096d0923204c4154494e20534d414c4c204c4554544552204d),
  (32, 0x30783030364509096e0923204c4154494e20534d414c4c204c4554544552204e),
  (32, 0x30783030364609096f0923204c4154494e20534d414c4c204c4554544552204f),
  (0, 0x0),
  (32, 0x3078303037300909700923204c4154494e20534d414c4c204c45545445522050),
  (32, 0x3078303037310909710923204c4154494e20534d414c4c204c45545445522051),
  (32, 0x3078303037320909720923204c4154494e20534d414c4c204c45545445522052),
  (32, 0x3078303037330909730923204c4154494e20534d414c4c204c45545445522053),
  (32, 0x3078303037340909740923204c4154494e20534d414c4c204c45545445522054),
  (32, 0x3078303037350909750923204c4154494e20534d414c4c204c45545445522055),
  (32, 0x3078303037360909760923204c4154494e20534d414c4c204c45545445522056),
  (32, 0x3078303037370909770923204c4154494e20534d414c4c204c45545445522057),
  (32, 0x3078303037380909780923204c4154494e20534d414c4c204c45545445522058),
  (32, 0x3078303037390909790923204c4154494e20534d414c4c204c45545445522059)]

/-- Lines 119-218 of table/legacy/unidecode.tbl. -/
def legacy_unidecode_3 : List (Nat × Nat) := [
  (32, 0x30783030374109097a0923204c4154494e20534d414c4c204c4554544552205a),
  (30, 0x30783030374209097b0923204c454654204355524c5920425241434b4554),
  (25, 0x30783030374309097c092320564552544943414c204c494e45),
  (31, 0x30783030374409097d0923205249474854204355524c5920425241434b4554),
  (17, 0x30783030374509097e09232054494c4445),
  (0, 0x0),
  (28, 0x30783030413009092220220923204e4f2d425245414b205350414345),
  (37, 0x307830304131090921092320494e564552544544204558434c414d4154494f4e204d41524b),
  (22, 0x3078303041320909432f09232043454e54205349474e),
  (23, 0x30783030413309095053092320504f554e44205349474e),
  (26, 0x3078303041340909243f09232043555252454e4359205349474e),
  (21, 0x3078303041350909593d09232059454e205349474e),
  (22, 0x30783030413609097c09232042524f4b454e20424152),
  (25, 0x3078303041370909535309232053454354494f4e205349474e),
  (23, 0x3078303041380909272227092320444941455245534953),
  (28, 0x3078303041390909286329092320434f50595249474854205349474e),
  (38, 0x30783030414109096109232046454d494e494e45204f5244494e414c20494e44494341544f52),
  (54, 0x30783030414209093c3c0923204c4546542d504f494e54494e4720444f55424c4520414e474c452051554f544154494f4e204d41524b),
  (20, 0x3078303041430909210923204e4f54205349474e),
  (29, 0x307830304145090928722909232052454749535445524544205349474e),
  (18, 0x30783030414609092d0923204d4143524f4e),
  (0, 0x0),
  (25, 0x3078303042300909646567092320444547524545205349474e),
  (28, 0x30783030423109092b2d092320504c55532d4d494e5553205349474e),
  (27, 0x30783030423209093209232053555045525343524950542054574f),
  (29, 0x3078303042330909330923205355504552534352495054205448524545),
  (26, 0x3078303042340909222722092320414355544520414343454e54),
  (22, 0x3078303042350909750923204d4943524f205349474e),
  (24, 0x30783030423609095009232050494c43524f57205349474e),
  (22, 0x30783030423709092a0923204d4944444c4520444f54),
  (19, 0x30783030423809092c092320434544494c4c41),
  (27, 0x3078303042390909310923205355504552534352495054204f4e45),
  (39, 0x30783030424109096f0923204d415343554c494e45204f5244494e414c20494e44494341544f52),
  (55, 0x30783030424209093e3e09232052494748542d504f494e54494e4720444f55424c4520414e474c452051554f544154494f4e204d41524b),
  (41, 0x3078303042430909312f3409232056554c474152204652414354494f4e204f4e452051554152544552),
  (38, 0x3078303042440909312f3209232056554c474152204652414354494f4e204f4e452048414c46),
  (44, 0x3078303042450909332f3409232056554c474152204652414354494f4e205448524545205155415254455253),
  (34, 0x30783030424609093f092320494e564552544544205155455354494f4e204d41524b),
  (0, 0x0),
  (45, 0x3078303043300909410923204c4154494e204341504954414c204c455454455220412057495448204752415645),
  (45, 0x3078303043310909410923204c4154494e204341504954414c204c455454455220412057495448204143555445),
  (50, 0x3078303043320909410923204c4154494e204341504954414c204c4554544552204120574954482043495243554d464c4558),
  (45, 0x3078303043330909410923204c4154494e204341504954414c204c4554544552204120574954482054494c4445),
  (49, 0x3078303043340909410923204c4154494e204341504954414c204c45545445522041205749544820444941455245534953),
  (50, 0x3078303043350909410923204c4154494e204341504954414c204c4554544552204120574954482052494e472041424f5645),
  (36, 0x307830304336090941450923204c4154494e204341504954414c204c4554544552204145),
  (47, 0x3078303043370909430923204c4154494e204341504954414c204c45545445522043205749544820434544494c4c41),
  (45, 0x3078303043380909450923204c4154494e204341504954414c204c455454455220452057495448204752415645),
  (45, 0x3078303043390909450923204c4154494e204341504954414c204c455454455220452057495448204143555445),
  (50, 0x3078303043410909450923204c4154494e204341504954414c204c4554544552204520574954482043495243554d464c4558),
  (49, 0x3078303043420909450923204c4154494e204341504954414c204c45545445522045205749544820444941455245534953),
  (45, 0x3078303043430909490923204c4154494e204341504954414c204c455454455220492057495448204752415645),
  (45, 0x3078303043440909490923204c4154494e204341504954414c204c455454455220492057495448204143555445),
  (50, 0x3078303043450909490923204c4154494e204341504954414c204c4554544552204920574954482043495243554d464c4558),
  (49, 0x3078303043460909490923204c4154494e204341504954414c204c45545445522049205749544820444941455245534953),
  (0, 0x0),
  (36, 0x3078303044300909440923204c4154494e204341504954414c204c455454455220455448),
  (45, 0x30783030443109094e0923204c4154494e204341504954414c204c4554544552204e20574954482054494c4445),
  (45, 0x30783030443209094f0923204c4154494e204341504954414c204c4554544552204f2057495448204752415645),
  (45, 0x30783030443309094f0923204c4154494e204341504954414c204c4554544552204f2057495448204143555445),
  (50, 0x30783030443409094f0923204c4154494e204341504954414c204c4554544552204f20574954482043495243554d464c4558),
  (45, 0x30783030443509094f0923204c4154494e204341504954414c204c4554544552204f20574954482054494c4445),
  (49, 0x30783030443609094f0923204c4154494e204341504954414c204c4554544552204f205749544820444941455245534953),
  (31, 0x3078303044370909780923204d554c5449504c49434154494f4e205349474e),
  (46, 0x30783030443809094f0923204c4154494e204341504954414c204c4554544552204f2057495448205354524f4b45),
  (45, 0x3078303044390909550923204c4154494e204341504954414c204c455454455220552057495448204752415645),
  (45, 0x3078303044410909550923204c4154494e204341504954414c204c455454455220552057495448204143555445),
  (50, 0x3078303044420909550923204c4154494e204341504954414c204c4554544552205520574954482043495243554d464c4558),
  (49, 0x3078303044430909550923204c4154494e204341504954414c204c45545445522055205749544820444941455245534953),
  (45, 0x3078303044440909590923204c4154494e204341504954414c204c455454455220592057495448204143555445),
  (39, 0x307830304445090954680923204c4154494e204341504954414c204c45545445522054484f524e),
  (39, 0x307830304446090973730923204c4154494e20534d414c4c204c45545445522053484152502053),
  (0, 0x0),
  (43, 0x3078303045300909610923204c4154494e20534d414c4c204c455454455220412057495448204752415645),
  (43, 0x3078303045310909610923204c4154494e20534d414c4c204c455454455220412057495448204143555445),
  (48, 0x3078303045320909610923204c4154494e20534d414c4c204c4554544552204120574954482043495243554d464c4558),
  (43, 0x3078303045330909610923204c4154494e20534d414c4c204c4554544552204120574954482054494c4445),
  (47, 0x3078303045340909610923204c4154494e20534d414c4c204c45545445522041205749544820444941455245534953),
  (48, 0x3078303045350909610923204c4154494e20534d414c4c204c4554544552204120574954482052494e472041424f5645),
  (34, 0x307830304536090961650923204c4154494e20534d414c4c204c4554544552204145),
  (45, 0x3078303045370909630923204c4154494e20534d414c4c204c45545445522043205749544820434544494c4c41),
  (43, 0x3078303045380909650923204c4154494e20534d414c4c204c455454455220452057495448204752415645),
  (43, 0x3078303045390909650923204c4154494e20534d414c4c204c455454455220452057495448204143555445),
  (48, 0x3078303045410909650923204c4154494e20534d414c4c204c4554544552204520574954482043495243554d464c4558),
  (47, 0x3078303045420909650923204c4154494e20534d414c4c204c45545445522045205749544820444941455245534953),
  (43, 0x3078303045430909690923204c4154494e20534d414c4c204c455454455220492057495448204752415645),
  (43, 0x3078303045440909690923204c4154494e20534d414c4c204c455454455220492057495448204143555445),
  (48, 0x3078303045450909690923204c4154494e20534d414c4c204c4554544552204920574954482043495243554d464c4558),
  (47, 0x3078303045460909690923204c4154494e20534d414c4c204c45545445522049205749544820444941455245534953),
  (0, 0x0),
  (34, 0x3078303046300909640923204c4154494e20534d414c4c204c455454455220455448),
  (43, 0x30783030463109096e0923204c4154494e20534d414c4c204c4554544552204e20574954482054494c4445),
  (43, 0x30783030463209096f0923204c4154494e20534d414c4c204c4554544552204f2057495448204752415645),
  (43, 0x30783030463309096f0923204c4154494e20534d414c4c204c4554544552204f2057495448204143555445),
  (48, 0x30783030463409096f0923204c4154494e20534d414c4c204c4554544552204f20574954482043495243554d464c4558),
  (43, 0x30783030463509096f0923204c4154494e20534d414c4c204c4554544552204f20574954482054494c4445),
  (47, 0x30783030463609096f0923204c4154494e20534d414c4c204c4554544552204f205749544820444941455245534953),
  (25, 0x30783030463709092f0923204449564953494f4e205349474e),
  (44, 0x30783030463809096f0923204c4154494e20534d414c4c204c4554544552204f2057495448205354524f4b45),
  (43, 0x3078303046390909750923204c4154494e20534d414c4c204c455454455220552057495448204752415645)]

/-- Lines 219-318 of table/legacy/unidecode.tbl. -/
def legacy_unidecode_4 : List (Nat × Nat) := [
  (43, 0x3078303046410909750923204c4154494e20534d414c4c204c455454455220552057495448204143555445),
  (48, 0x3078303046420909750923204c4154494e20534d414c4c204c4554544552205520574954482043495243554d464c4558),
  (47, 0x3078303046430909750923204c4154494e20534d414c4c204c45545445522055205749544820444941455245534953),
  (43, 0x3078303046440909790923204c4154494e20534d414c4c204c455454455220592057495448204143555445),
  (37, 0x307830304645090974680923204c4154494e20534d414c4c204c45545445522054484f524e),
  (47, 0x3078303046460909790923204c4154494e20534d414c4c204c45545445522059205749544820444941455245534953),
  (0, 0x0),
  (1, 0x23),
  (29, 0x2320436861726163746572732030783031303020746f20307830314646),
  (1, 0x23),
  (0, 0x0),
  (46, 0x3078303130300909410923204c4154494e204341504954414c204c455454455220412057495448204d4143524f4e),
  (44, 0x3078303130310909610923204c4154494e20534d414c4c204c455454455220412057495448204d4143524f4e),
  (45, 0x3078303130320909410923204c4154494e204341504954414c204c455454455220412057495448204252455645),
  (43, 0x3078303130330909610923204c4154494e20534d414c4c204c455454455220412057495448204252455645),
  (46, 0x3078303130340909410923204c4154494e204341504954414c204c455454455220412057495448204f474f4e454b),
  (44, 0x3078303130350909610923204c4154494e20534d414c4c204c455454455220412057495448204f474f4e454b),
  (45, 0x3078303130360909430923204c4154494e204341504954414c204c455454455220432057495448204143555445),
  (43, 0x3078303130370909630923204c4154494e20534d414c4c204c455454455220432057495448204143555445),
  (50, 0x3078303130380909430923204c4154494e204341504954414c204c4554544552204320574954482043495243554d464c4558),
  (48, 0x3078303130390909630923204c4154494e20534d414c4c204c4554544552204320574954482043495243554d464c4558),
  (49, 0x3078303130410909430923204c4154494e204341504954414c204c45545445522043205749544820444f542041424f5645),
  (47, 0x3078303130420909630923204c4154494e20534d414c4c204c45545445522043205749544820444f542041424f5645),
  (45, 0x3078303130430909430923204c4154494e204341504954414c204c455454455220432057495448204341524f4e),
  (43, 0x3078303130440909630923204c4154494e20534d414c4c204c455454455220432057495448204341524f4e),
  (45, 0x3078303130450909440923204c4154494e204341504954414c204c455454455220442057495448204341524f4e),
  (43, 0x3078303130460909640923204c4154494e20534d414c4c204c455454455220442057495448204341524f4e),
  (0, 0x0),
  (46, 0x3078303131300909440923204c4154494e204341504954414c204c455454455220442057495448205354524f4b45),
  (44, 0x3078303131310909640923204c4154494e20534d414c4c204c455454455220442057495448205354524f4b45),
  (46, 0x3078303131320909450923204c4154494e204341504954414c204c455454455220452057495448204d4143524f4e),
  (44, 0x3078303131330909650923204c4154494e20534d414c4c204c455454455220452057495448204d4143524f4e),
  (45, 0x3078303131340909450923204c4154494e204341504954414c204c455454455220452057495448204252455645),
  (43, 0x3078303131350909650923204c4154494e20534d414c4c204c455454455220452057495448204252455645),
  (49, 0x3078303131360909450923204c4154494e204341504954414c204c45545445522045205749544820444f542041424f5645),
  (47, 0x3078303131370909650923204c4154494e20534d414c4c204c45545445522045205749544820444f542041424f5645),
  (46, 0x3078303131380909450923204c4154494e204341504954414c204c455454455220452057495448204f474f4e454b),
  (44, 0x3078303131390909650923204c4154494e20534d414c4c204c455454455220452057495448204f474f4e454b),
  (45, 0x3078303131410909450923204c4154494e204341504954414c204c455454455220452057495448204341524f4e),
  (43, 0x3078303131420909650923204c4154494e20534d414c4c204c455454455220452057495448204341524f4e),
  (50, 0x3078303131430909470923204c4154494e204341504954414c204c4554544552204720574954482043495243554d464c4558),
  (48, 0x3078303131440909670923204c4154494e20534d414c4c204c4554544552204720574954482043495243554d464c4558),
  (45, 0x3078303131450909470923204c4154494e204341504954414c204c455454455220472057495448204252455645),
  (43, 0x3078303131460909670923204c4154494e20534d414c4c204c455454455220472057495448204252455645),
  (0, 0x0),
  (49, 0x3078303132300909470923204c4154494e204341504954414c204c45545445522047205749544820444f542041424f5645),
  (47, 0x3078303132310909670923204c4154494e20534d414c4c204c45545445522047205749544820444f542041424f5645),
  (47, 0x3078303132320909470923204c4154494e204341504954414c204c45545445522047205749544820434544494c4c41),
  (45, 0x3078303132330909670923204c4154494e20534d414c4c204c45545445522047205749544820434544494c4c41),
  (50, 0x3078303132340909480923204c4154494e204341504954414c204c4554544552204820574954482043495243554d464c4558),
  (48, 0x3078303132350909680923204c4154494e20534d414c4c204c4554544552204820574954482043495243554d464c4558),
  (46, 0x3078303132360909480923204c4154494e204341504954414c204c455454455220482057495448205354524f4b45),
  (44, 0x3078303132370909680923204c4154494e20534d414c4c204c455454455220482057495448205354524f4b45),
  (45, 0x3078303132380909490923204c4154494e204341504954414c204c4554544552204920574954482054494c4445),
  (43, 0x3078303132390909690923204c4154494e20534d414c4c204c4554544552204920574954482054494c4445),
  (46, 0x3078303132410909490923204c4154494e204341504954414c204c455454455220492057495448204d4143524f4e),
  (44, 0x3078303132420909690923204c4154494e20534d414c4c204c455454455220492057495448204d4143524f4e),
  (45, 0x3078303132430909490923204c4154494e204341504954414c204c455454455220492057495448204252455645),
  (43, 0x3078303132440909690923204c4154494e20534d414c4c204c455454455220492057495448204252455645),
  (46, 0x3078303132450909490923204c4154494e204341504954414c204c455454455220492057495448204f474f4e454b),
  (44, 0x3078303132460909690923204c4154494e20534d414c4c204c455454455220492057495448204f474f4e454b),
  (0, 0x0),
  (49, 0x3078303133300909490923204c4154494e204341504954414c204c45545445522049205749544820444f542041424f5645),
  (40, 0x3078303133310909690923204c4154494e20534d414c4c204c455454455220444f544c4553532049),
  (38, 0x3078303133320909494a0923204c4154494e204341504954414c204c4947415455524520494a),
  (36, 0x3078303133330909696a0923204c4154494e20534d414c4c204c4947415455524520494a),
  (50, 0x30783031333409094a0923204c4154494e204341504954414c204c4554544552204a20574954482043495243554d464c4558),
  (48, 0x30783031333509096a0923204c4154494e20534d414c4c204c4554544552204a20574954482043495243554d464c4558),
  (47, 0x30783031333609094b0923204c4154494e204341504954414c204c4554544552204b205749544820434544494c4c41),
  (45, 0x30783031333709096b0923204c4154494e20534d414c4c204c4554544552204b205749544820434544494c4c41),
  (34, 0x30783031333809096b0923204c4154494e20534d414c4c204c4554544552204b5241),
  (45, 0x30783031333909094c0923204c4154494e204341504954414c204c4554544552204c2057495448204143555445),
  (43, 0x30783031334109096c0923204c4154494e20534d414c4c204c4554544552204c2057495448204143555445),
  (47, 0x30783031334209094c0923204c4154494e204341504954414c204c4554544552204c205749544820434544494c4c41),
  (45, 0x30783031334309096c0923204c4154494e20534d414c4c204c4554544552204c205749544820434544494c4c41),
  (45, 0x30783031334409094c0923204c4154494e204341504954414c204c4554544552204c2057495448204341524f4e),
  (43, 0x30783031334509096c0923204c4154494e20534d414c4c204c4554544552204c2057495448204341524f4e),
  (50, 0x30783031334609094c0923204c4154494e204341504954414c204c4554544552204c2057495448204d4944444c4520444f54),
  (0, 0x0),
  (48, 0x30783031343009096c0923204c4154494e20534d414c4c204c4554544552204c2057495448204d4944444c4520444f54),
  (46, 0x30783031343109094c0923204c4154494e204341504954414c204c4554544552204c2057495448205354524f4b45),
  (44, 0x30783031343209096c0923204c4154494e20534d414c4c204c4554544552204c2057495448205354524f4b45),
  (45, 0x30783031343309094e0923204c4154494e204341504954414c204c4554544552204e2057495448204143555445),
  (43, 0x30783031343409096e0923204c4154494e20534d414c4c204c4554544552204e2057495448204143555445),
  (47, 0x30783031343509094e0923204c4154494e204341504954414c204c4554544552204e205749544820434544494c4c41),
  (45, 0x30783031343609096e0923204c4154494e20534d414c4c204c4554544552204e205749544820434544494c4c41),
  (45, 0x30783031343709094e0923204c4154494e204341504954414c204c4554544552204e2057495448204341524f4e),
  (43, 0x30783031343809096e0923204c4154494e20534d414c4c204c4554544552204e2057495448204341524f4e),
  (58, 0x307830313439090922276e220923204c4154494e20534d414c4c204c4554544552204e2050524543454445442042592041504f5354524f504845),
  (37, 0x30783031344109096e670923204c4154494e204341504954414c204c455454455220454e47),
  (35, 0x30783031344209094e470923204c4154494e20534d414c4c204c455454455220454e47),
  (46, 0x30783031344309094f0923204c4154494e204341504954414c204c4554544552204f2057495448204d4143524f4e),
  (44, 0x30783031344409096f0923204c4154494e20534d414c4c204c4554544552204f2057495448204d4143524f4e),
  (45, 0x30783031344509094f0923204c4154494e204341504954414c204c4554544552204f2057495448204252455645),
  (43, 0x30783031344609096f0923204c4154494e20534d414c4c204c4554544552204f2057495448204252455645),
  (0, 0x0),
  (52, 0x30783031353009094f0923204c4154494e204341504954414c204c4554544552204f205749544820444f55424c45204143555445),
  (50, 0x30783031353109096f0923204c4154494e20534d414c4c204c4554544552204f205749544820444f55424c45204143555445),
  (38, 0x30783031353209094f450923204c4154494e204341504954414c204c49474154555245204f45),
  (36, 0x30783031353309096f650923204c4154494e20534d414c4c204c49474154555245204f45)]

/-- Lines 319-418 of table/legacy/unidecode.tbl. -/
def legacy_unidecode_5 : List (Nat × Nat) := [
  (45, 0x3078303135340909520923204c4154494e204341504954414c204c455454455220522057495448204143555445),
  (43, 0x3078303135350909720923204c4154494e20534d414c4c204c455454455220522057495448204143555445),
  (47, 0x3078303135360909520923204c4154494e204341504954414c204c45545445522052205749544820434544494c4c41),
  (45, 0x3078303135370909720923204c4154494e20534d414c4c204c45545445522052205749544820434544494c4c41),
  (45, 0x3078303135380909520923204c4154494e204341504954414c204c455454455220522057495448204341524f4e),
  (43, 0x3078303135390909720923204c4154494e20534d414c4c204c455454455220522057495448204341524f4e),
  (45, 0x3078303135410909530923204c4154494e204341504954414c204c455454455220532057495448204143555445),
  (43, 0x3078303135420909730923204c4154494e20534d414c4c204c455454455220532057495448204143555445),
  (50, 0x3078303135430909530923204c4154494e204341504954414c204c4554544552205320574954482043495243554d464c4558),
  (48, 0x3078303135440909730923204c4154494e20534d414c4c204c4554544552205320574954482043495243554d464c4558),
  (47, 0x3078303135450909530923204c4154494e204341504954414c204c45545445522053205749544820434544494c4c41),
  (45, 0x3078303135460909730923204c4154494e20534d414c4c204c45545445522053205749544820434544494c4c41),
  (0, 0x0),
  (45, 0x3078303136300909530923204c4154494e204341504954414c204c455454455220532057495448204341524f4e),
  (43, 0x3078303136310909730923204c4154494e20534d414c4c204c455454455220532057495448204341524f4e),
  (47, 0x3078303136320909540923204c4154494e204341504954414c204c45545445522054205749544820434544494c4c41),
  (45, 0x3078303136330909740923204c4154494e20534d414c4c204c45545445522054205749544820434544494c4c41),
  (45, 0x3078303136340909540923204c4154494e204341504954414c204c455454455220542057495448204341524f4e),
  (43, 0x3078303136350909740923204c4154494e20534d414c4c204c455454455220542057495448204341524f4e),
  (46, 0x3078303136360909540923204c4154494e204341504954414c204c455454455220542057495448205354524f4b45),
  (44, 0x3078303136370909740923204c4154494e20534d414c4c204c455454455220542057495448205354524f4b45),
  (45, 0x3078303136380909550923204c4154494e204341504954414c204c4554544552205520574954482054494c4445),
  (43, 0x3078303136390909750923204c4154494e20534d414c4c204c4554544552205520574954482054494c4445),
  (46, 0x3078303136410909550923204c4154494e204341504954414c204c455454455220552057495448204d4143524f4e),
  (44, 0x3078303136420909750923204c4154494e20534d414c4c204c455454455220552057495448204d4143524f4e),
  (45, 0x3078303136430909550923204c4154494e204341504954414c204c455454455220552057495448204252455645),
  (43, 0x3078303136440909750923204c4154494e20534d414c4c204c455454455220552057495448204252455645),
  (50, 0x3078303136450909550923204c4154494e204341504954414c204c4554544552205520574954482052494e472041424f5645),
  (48, 0x3078303136460909750923204c4154494e20534d414c4c204c4554544552205520574954482052494e472041424f5645),
  (0, 0x0),
  (52, 0x3078303137300909550923204c4154494e204341504954414c204c45545445522055205749544820444f55424c45204143555445),
  (50, 0x3078303137310909750923204c4154494e20534d414c4c204c45545445522055205749544820444f55424c45204143555445),
  (46, 0x3078303137320909550923204c4154494e204341504954414c204c455454455220552057495448204f474f4e454b),
  (44, 0x3078303137330909750923204c4154494e20534d414c4c204c455454455220552057495448204f474f4e454b),
  (50, 0x3078303137340909570923204c4154494e204341504954414c204c4554544552205720574954482043495243554d464c4558),
  (48, 0x3078303137350909770923204c4154494e20534d414c4c204c4554544552205720574954482043495243554d464c4558),
  (50, 0x3078303137360909590923204c4154494e204341504954414c204c4554544552205920574954482043495243554d464c4558),
  (48, 0x3078303137370909790923204c4154494e20534d414c4c204c4554544552205920574954482043495243554d464c4558),
  (49, 0x3078303137380909590923204c4154494e204341504954414c204c45545445522059205749544820444941455245534953),
  (45, 0x30783031373909095a0923204c4154494e204341504954414c204c4554544552205a2057495448204143555445),
  (43, 0x30783031374109097a0923204c4154494e20534d414c4c204c4554544552205a2057495448204143555445),
  (49, 0x30783031374209095a0923204c4154494e204341504954414c204c4554544552205a205749544820444f542041424f5645),
  (47, 0x30783031374309097a0923204c4154494e20534d414c4c204c4554544552205a205749544820444f542041424f5645),
  (45, 0x30783031374409095a0923204c4154494e204341504954414c204c4554544552205a2057495448204341524f4e),
  (43, 0x30783031374509097a0923204c4154494e20534d414c4c204c4554544552205a2057495448204341524f4e),
  (37, 0x3078303137460909730923204c4154494e20534d414c4c204c4554544552204c4f4e472053),
  (0, 0x0),
  (44, 0x3078303138300909620923204c4154494e20534d414c4c204c455454455220422057495448205354524f4b45),
  (44, 0x3078303138310909420923204c4154494e204341504954414c204c45545445522042205749544820484f4f4b),
  (46, 0x3078303138320909420923204c4154494e204341504954414c204c45545445522042205749544820544f50424152),
  (44, 0x3078303138330909620923204c4154494e20534d414c4c204c45545445522042205749544820544f50424152),
  (41, 0x3078303138340909360923204c4154494e204341504954414c204c455454455220544f4e4520534958),
  (39, 0x3078303138350909360923204c4154494e20534d414c4c204c455454455220544f4e4520534958),
  (39, 0x30783031383609094f0923204c4154494e204341504954414c204c4554544552204f50454e204f),
  (44, 0x3078303138370909430923204c4154494e204341504954414c204c45545445522043205749544820484f4f4b),
  (42, 0x3078303138380909630923204c4154494e20534d414c4c204c45545445522043205749544820484f4f4b),
  (42, 0x3078303138390909440923204c4154494e204341504954414c204c4554544552204146524943414e2044),
  (44, 0x3078303138410909440923204c4154494e204341504954414c204c45545445522044205749544820484f4f4b),
  (46, 0x3078303138420909440923204c4154494e204341504954414c204c45545445522044205749544820544f50424152),
  (44, 0x3078303138430909640923204c4154494e20534d414c4c204c45545445522044205749544820544f50424152),
  (43, 0x3078303138440909640923204c4154494e20534d414c4c204c4554544552205455524e45442044454c5441),
  (43, 0x3078303138450909330923204c4154494e204341504954414c204c45545445522052455645525345442045),
  (38, 0x3078303138460909400923204c4154494e204341504954414c204c4554544552205343485741),
  (0, 0x0),
  (39, 0x3078303139300909450923204c4154494e204341504954414c204c4554544552204f50454e2045),
  (44, 0x3078303139310909460923204c4154494e204341504954414c204c45545445522046205749544820484f4f4b),
  (42, 0x3078303139320909660923204c4154494e20534d414c4c204c45545445522046205749544820484f4f4b),
  (44, 0x3078303139330909470923204c4154494e204341504954414c204c45545445522047205749544820484f4f4b),
  (38, 0x3078303139340909470923204c4154494e204341504954414c204c45545445522047414d4d41),
  (34, 0x307830313935090968760923204c4154494e20534d414c4c204c4554544552204856),
  (37, 0x3078303139360909490923204c4154494e204341504954414c204c455454455220494f5441),
  (46, 0x3078303139370909490923204c4154494e204341504954414c204c455454455220492057495448205354524f4b45),
  (44, 0x30783031393809094b0923204c4154494e204341504954414c204c4554544552204b205749544820484f4f4b),
  (42, 0x30783031393909096b0923204c4154494e20534d414c4c204c4554544552204b205749544820484f4f4b),
  (41, 0x30783031394109096c0923204c4154494e20534d414c4c204c4554544552204c205749544820424152),
  (49, 0x30783031394209096c0923204c4154494e20534d414c4c204c4554544552204c414d4244412057495448205354524f4b45),
  (41, 0x3078303139430909570923204c4154494e204341504954414c204c4554544552205455524e4544204d),
  (49, 0x30783031394409094e0923204c4154494e204341504954414c204c4554544552204e2057495448204c45465420484f4f4b),
  (52, 0x30783031394509096e0923204c4154494e20534d414c4c204c4554544552204e2057495448204c4f4e47205249474854204c4547),
  (52, 0x30783031394609094f0923204c4154494e204341504954414c204c4554544552204f2057495448204d4944444c452054494c4445),
  (0, 0x0),
  (44, 0x30783031413009094f0923204c4154494e204341504954414c204c4554544552204f205749544820484f524e),
  (42, 0x30783031413109096f0923204c4154494e20534d414c4c204c4554544552204f205749544820484f524e),
  (36, 0x30783031413209094f490923204c4154494e204341504954414c204c4554544552204f49),
  (34, 0x30783031413309096f690923204c4154494e20534d414c4c204c4554544552204f49),
  (44, 0x3078303141340909500923204c4154494e204341504954414c204c45545445522050205749544820484f4f4b),
  (42, 0x3078303141350909700923204c4154494e20534d414c4c204c45545445522050205749544820484f4f4b),
  (28, 0x307830314136090959520923204c4154494e204c4554544552205952),
  (41, 0x3078303141370909320923204c4154494e204341504954414c204c455454455220544f4e452054574f),
  (39, 0x3078303141380909320923204c4154494e20534d414c4c204c455454455220544f4e452054574f),
  (37, 0x307830314139090953480923204c4154494e204341504954414c204c455454455220455348),
  (43, 0x307830314141090973680923204c4154494e204c455454455220524556455253454420455348204c4f4f50),
  (50, 0x3078303141420909740923204c4154494e20534d414c4c204c4554544552205420574954482050414c4154414c20484f4f4b),
  (44, 0x3078303141430909540923204c4154494e204341504954414c204c45545445522054205749544820484f4f4b),
  (42, 0x3078303141440909740923204c4154494e20534d414c4c204c45545445522054205749544820484f4f4b),
  (54, 0x3078303141450909540923204c4154494e204341504954414c204c45545445522054205749544820524554524f464c455820484f4f4b),
  (44, 0x3078303141460909550923204c4154494e204341504954414c204c45545445522055205749544820484f524e),
  (0, 0x0),
  (42, 0x3078303142300909750923204c4154494e20534d414c4c204c45545445522055205749544820484f524e),
  (40, 0x3078303142310909590923204c4154494e204341504954414c204c455454455220555053494c4f4e)]

/-- Lines 419-518 of table/legacy/unidecode.tbl. -/
def legacy_unidecode_6 : List (Nat × Nat) := [
  (44, 0x3078303142320909560923204c4154494e204341504954414c204c45545445522056205749544820484f4f4b),
  (44, 0x3078303142330909590923204c4154494e204341504954414c204c45545445522059205749544820484f4f4b),
  (42, 0x3078303142340909790923204c4154494e20534d414c4c204c45545445522059205749544820484f4f4b),
  (46, 0x30783031423509095a0923204c4154494e204341504954414c204c4554544552205a2057495448205354524f4b45),
  (44, 0x30783031423609097a0923204c4154494e20534d414c4c204c4554544552205a2057495448205354524f4b45),
  (37, 0x30783031423709095a480923204c4154494e204341504954414c204c455454455220455a48),
  (46, 0x30783031423809095a480923204c4154494e204341504954414c204c455454455220455a48205245564552534544),
  (44, 0x30783031423909097a680923204c4154494e20534d414c4c204c455454455220455a48205245564552534544),
  (45, 0x30783031424109097a680923204c4154494e20534d414c4c204c455454455220455a482057495448205441494c),
  (40, 0x3078303142420909320923204c4154494e204c45545445522054574f2057495448205354524f4b45),
  (42, 0x3078303142430909350923204c4154494e204341504954414c204c455454455220544f4e452046495645),
  (40, 0x3078303142440909350923204c4154494e20534d414c4c204c455454455220544f4e452046495645),
  (59, 0x307830314245090974730923204c4154494e204c455454455220494e56455254454420474c4f5454414c2053544f502057495448205354524f4b45),
  (29, 0x3078303142460909770923204c4154494e204c45545445522057594e4e),
  (0, 0x0),
  (37, 0x30783031433009097c0923204c4154494e204c45545445522044454e54414c20434c49434b),
  (39, 0x30783031433109097c7c0923204c4154494e204c4554544552204c41544552414c20434c49434b),
  (40, 0x30783031433209097c3d0923204c4154494e204c455454455220414c56454f4c415220434c49434b),
  (40, 0x3078303143330909210923204c4154494e204c455454455220524554524f464c455820434c49434b),
  (47, 0x3078303143340909445a0923204c4154494e204341504954414c204c455454455220445a2057495448204341524f4e),
  (66, 0x3078303143350909447a0923204c4154494e204341504954414c204c45545445522044205749544820534d414c4c204c4554544552205a2057495448204341524f4e),
  (45, 0x3078303143360909647a0923204c4154494e20534d414c4c204c455454455220445a2057495448204341524f4e),
  (36, 0x30783031433709094c4a0923204c4154494e204341504954414c204c4554544552204c4a),
  (55, 0x30783031433809094c6a0923204c4154494e204341504954414c204c4554544552204c205749544820534d414c4c204c4554544552204a),
  (34, 0x30783031433909096c6a0923204c4154494e20534d414c4c204c4554544552204c4a),
  (36, 0x30783031434109094e4a0923204c4154494e204341504954414c204c4554544552204e4a),
  (55, 0x30783031434209094e6a0923204c4154494e204341504954414c204c4554544552204e205749544820534d414c4c204c4554544552204a),
  (34, 0x30783031434309096e6a0923204c4154494e20534d414c4c204c4554544552204e4a),
  (45, 0x3078303143440909410923204c4154494e204341504954414c204c455454455220412057495448204341524f4e),
  (43, 0x3078303143450909610923204c4154494e20534d414c4c204c455454455220412057495448204341524f4e),
  (45, 0x3078303143460909490923204c4154494e204341504954414c204c455454455220492057495448204341524f4e),
  (0, 0x0),
  (43, 0x3078303144300909690923204c4154494e20534d414c4c204c455454455220492057495448204341524f4e),
  (45, 0x30783031443109094f0923204c4154494e204341504954414c204c4554544552204f2057495448204341524f4e),
  (43, 0x30783031443209096f0923204c4154494e20534d414c4c204c4554544552204f2057495448204341524f4e),
  (45, 0x3078303144330909550923204c4154494e204341504954414c204c455454455220552057495448204341524f4e),
  (43, 0x3078303144340909750923204c4154494e20534d414c4c204c455454455220552057495448204341524f4e),
  (60, 0x3078303144350909550923204c4154494e204341504954414c204c4554544552205520574954482044494145524553495320414e44204d4143524f4e),
  (58, 0x3078303144360909750923204c4154494e20534d414c4c204c4554544552205520574954482044494145524553495320414e44204d4143524f4e),
  (59, 0x3078303144370909550923204c4154494e204341504954414c204c4554544552205520574954482044494145524553495320414e44204143555445),
  (57, 0x3078303144380909750923204c4154494e20534d414c4c204c4554544552205520574954482044494145524553495320414e44204143555445),
  (59, 0x3078303144390909550923204c4154494e204341504954414c204c4554544552205520574954482044494145524553495320414e44204341524f4e),
  (57, 0x3078303144410909750923204c4154494e20534d414c4c204c4554544552205520574954482044494145524553495320414e44204341524f4e),
  (59, 0x3078303144420909550923204c4154494e204341504954414c204c4554544552205520574954482044494145524553495320414e44204752415645),
  (57, 0x3078303144430909750923204c4154494e20534d414c4c204c4554544552205520574954482044494145524553495320414e44204752415645),
  (39, 0x3078303144440909400923204c4154494e20534d414c4c204c4554544552205455524e45442045),
  (60, 0x3078303144450909410923204c4154494e204341504954414c204c4554544552204120574954482044494145524553495320414e44204d4143524f4e),
  (58, 0x3078303144460909610923204c4154494e20534d414c4c204c4554544552204120574954482044494145524553495320414e44204d4143524f4e),
  (0, 0x0),
  (60, 0x3078303145300909410923204c4154494e204341504954414c204c45545445522041205749544820444f542041424f564520414e44204d4143524f4e),
  (58, 0x3078303145310909610923204c4154494e20534d414c4c204c45545445522041205749544820444f542041424f564520414e44204d4143524f4e),
  (48, 0x307830314532090941450923204c4154494e204341504954414c204c45545445522041452057495448204d4143524f4e),
  (46, 0x307830314533090961650923204c4154494e20534d414c4c204c45545445522041452057495448204d4143524f4e),
  (46, 0x3078303145340909470923204c4154494e204341504954414c204c455454455220472057495448205354524f4b45),
  (44, 0x3078303145350909670923204c4154494e20534d414c4c204c455454455220472057495448205354524f4b45),
  (45, 0x3078303145360909470923204c4154494e204341504954414c204c455454455220472057495448204341524f4e),
  (43, 0x3078303145370909670923204c4154494e20534d414c4c204c455454455220472057495448204341524f4e),
  (45, 0x30783031453809094b0923204c4154494e204341504954414c204c4554544552204b2057495448204341524f4e),
  (43, 0x30783031453909096b0923204c4154494e20534d414c4c204c4554544552204b2057495448204341524f4e),
  (46, 0x30783031454109094f0923204c4154494e204341504954414c204c4554544552204f2057495448204f474f4e454b),
  (44, 0x30783031454209096f0923204c4154494e20534d414c4c204c4554544552204f2057495448204f474f4e454b),
  (57, 0x30783031454309094f0923204c4154494e204341504954414c204c4554544552204f2057495448204f474f4e454b20414e44204d4143524f4e),
  (55, 0x30783031454409096f0923204c4154494e20534d414c4c204c4554544552204f2057495448204f474f4e454b20414e44204d4143524f4e),
  (48, 0x30783031454509095a480923204c4154494e204341504954414c204c455454455220455a482057495448204341524f4e),
  (46, 0x30783031454609097a680923204c4154494e20534d414c4c204c455454455220455a482057495448204341524f4e),
  (0, 0x0),
  (43, 0x30783031463009096a0923204c4154494e20534d414c4c204c4554544552204a2057495448204341524f4e),
  (36, 0x3078303146310909445a0923204c4154494e204341504954414c204c455454455220445a),
  (55, 0x3078303146320909447a0923204c4154494e204341504954414c204c45545445522044205749544820534d414c4c204c4554544552205a),
  (34, 0x3078303146330909647a0923204c4154494e20534d414c4c204c455454455220445a),
  (45, 0x3078303146340909470923204c4154494e204341504954414c204c455454455220472057495448204143555445),
  (43, 0x3078303146350909670923204c4154494e20534d414c4c204c455454455220472057495448204143555445),
  (39, 0x307830314636090948560923204c4154494e204341504954414c204c4554544552204857414952),
  (37, 0x3078303146370909570923204c4154494e204341504954414c204c45545445522057594e4e),
  (45, 0x30783031463809094e0923204c4154494e204341504954414c204c4554544552204e2057495448204752415645),
  (43, 0x30783031463909096e0923204c4154494e20534d414c4c204c4554544552204e2057495448204752415645),
  (60, 0x3078303146410909410923204c4154494e204341504954414c204c4554544552204120574954482052494e472041424f564520414e44204143555445),
  (58, 0x3078303146420909610923204c4154494e20534d414c4c204c4554544552204120574954482052494e472041424f564520414e44204143555445),
  (47, 0x307830314643090941450923204c4154494e204341504954414c204c45545445522041452057495448204143555445),
  (45, 0x307830314644090961650923204c4154494e20534d414c4c204c45545445522041452057495448204143555445),
  (56, 0x30783031464509094f0923204c4154494e204341504954414c204c4554544552204f2057495448205354524f4b4520414e44204143555445),
  (54, 0x30783031464609096f0923204c4154494e20534d414c4c204c4554544552204f2057495448205354524f4b4520414e44204143555445),
  (0, 0x0),
  (1, 0x23),
  (29, 0x2320436861726163746572732030783032303020746f20307830324646),
  (1, 0x23),
  (0, 0x0),
  (52, 0x3078303230300909410923204c4154494e204341504954414c204c45545445522041205749544820444f55424c45204752415645),
  (50, 0x3078303230310909610923204c4154494e20534d414c4c204c45545445522041205749544820444f55424c45204752415645),
  (54, 0x3078303230320909410923204c4154494e204341504954414c204c45545445522041205749544820494e564552544544204252455645),
  (52, 0x3078303230330909610923204c4154494e20534d414c4c204c45545445522041205749544820494e564552544544204252455645),
  (52, 0x3078303230340909450923204c4154494e204341504954414c204c45545445522045205749544820444f55424c45204752415645),
  (50, 0x3078303230350909650923204c4154494e20534d414c4c204c45545445522045205749544820444f55424c45204752415645),
  (54, 0x3078303230360909450923204c4154494e204341504954414c204c45545445522045205749544820494e564552544544204252455645),
  (52, 0x3078303230370909650923204c4154494e20534d414c4c204c45545445522045205749544820494e564552544544204252455645),
  (52, 0x3078303230380909490923204c4154494e204341504954414c204c45545445522049205749544820444f55424c45204752415645),
  (50, 0x3078303230390909690923204c4154494e20534d414c4c204c45545445522049205749544820444f55424c45204752415645),
  (54, 0x3078303230410909490923204c4154494e204341504954414c204c45545445522049205749544820494e564552544544204252455645),
  (52, 0x3078303230420909690923204c4154494e20534d414c4c204c45545445522049205749544820494e564552544544204252455645),
  (52, 0x30783032304309094f0923204c4154494e204341504954414c204c4554544552204f205749544820444f55424c45204752415645)]

/-- Lines 519-618 of table/legacy/unidecode.tbl. -/
def legacy_unidecode_7 : List (Nat × Nat) := [
  (50, 0x30783032304409096f0923204c4154494e20534d414c4c204c4554544552204f205749544820444f55424c45204752415645),
  (54, 0x30783032304509094f0923204c4154494e204341504954414c204c4554544552204f205749544820494e564552544544204252455645),
  (52, 0x30783032304609096f0923204c4154494e20534d414c4c204c4554544552204f205749544820494e564552544544204252455645),
  (0, 0x0),
  (52, 0x3078303231300909520923204c4154494e204341504954414c204c45545445522052205749544820444f55424c45204752415645),
  (50, 0x3078303231310909720923204c4154494e20534d414c4c204c45545445522052205749544820444f55424c45204752415645),
  (54, 0x3078303231320909520923204c4154494e204341504954414c204c45545445522052205749544820494e564552544544204252455645),
  (52, 0x3078303231330909720923204c4154494e20534d414c4c204c45545445522052205749544820494e564552544544204252455645),
  (52, 0x3078303231340909550923204c4154494e204341504954414c204c45545445522055205749544820444f55424c45204752415645),
  (50, 0x3078303231350909750923204c4154494e20534d414c4c204c45545445522055205749544820444f55424c45204752415645),
  (54, 0x3078303231360909550923204c4154494e204341504954414c204c45545445522055205749544820494e564552544544204252455645),
  (52, 0x3078303231370909750923204c4154494e20534d414c4c204c45545445522055205749544820494e564552544544204252455645),
  (51, 0x3078303231380909530923204c4154494e204341504954414c204c45545445522053205749544820434f4d4d412042454c4f57),
  (49, 0x3078303231390909730923204c4154494e20534d414c4c204c45545445522053205749544820434f4d4d412042454c4f57),
  (51, 0x3078303231410909540923204c4154494e204341504954414c204c45545445522054205749544820434f4d4d412042454c4f57),
  (49, 0x3078303231420909740923204c4154494e20534d414c4c204c45545445522054205749544820434f4d4d412042454c4f57),
  (37, 0x3078303231430909590923204c4154494e204341504954414c204c455454455220594f4748),
  (35, 0x3078303231440909790923204c4154494e20534d414c4c204c455454455220594f4748),
  (45, 0x3078303231450909480923204c4154494e204341504954414c204c455454455220482057495448204341524f4e),
  (43, 0x3078303231460909680923204c4154494e20534d414c4c204c455454455220482057495448204341524f4e),
  (0, 0x0),
  (54, 0x30783032323009094e0923204c4154494e204341504954414c204c4554544552204e2057495448204c4f4e47205249474854204c4547),
  (42, 0x3078303232310909640923204c4154494e20534d414c4c204c455454455220442057495448204355524c),
  (36, 0x30783032323209094f550923204c4154494e204341504954414c204c4554544552204f55),
  (34, 0x30783032323309096f750923204c4154494e20534d414c4c204c4554544552204f55),
  (44, 0x30783032323409095a0923204c4154494e204341504954414c204c4554544552205a205749544820484f4f4b),
  (42, 0x30783032323509097a0923204c4154494e20534d414c4c204c4554544552205a205749544820484f4f4b),
  (49, 0x3078303232360909410923204c4154494e204341504954414c204c45545445522041205749544820444f542041424f5645),
  (47, 0x3078303232370909610923204c4154494e20534d414c4c204c45545445522041205749544820444f542041424f5645),
  (47, 0x3078303232380909450923204c4154494e204341504954414c204c45545445522045205749544820434544494c4c41),
  (45, 0x3078303232390909650923204c4154494e20534d414c4c204c45545445522045205749544820434544494c4c41),
  (60, 0x30783032324109094f0923204c4154494e204341504954414c204c4554544552204f20574954482044494145524553495320414e44204d4143524f4e),
  (58, 0x30783032324209096f0923204c4154494e20534d414c4c204c4554544552204f20574954482044494145524553495320414e44204d4143524f4e),
  (56, 0x30783032324309094f0923204c4154494e204341504954414c204c4554544552204f20574954482054494c444520414e44204d4143524f4e),
  (54, 0x30783032324409096f0923204c4154494e20534d414c4c204c4554544552204f20574954482054494c444520414e44204d4143524f4e),
  (49, 0x30783032324509094f0923204c4154494e204341504954414c204c4554544552204f205749544820444f542041424f5645),
  (47, 0x30783032324609096f0923204c4154494e20534d414c4c204c4554544552204f205749544820444f542041424f5645),
  (0, 0x0),
  (60, 0x30783032333009094f0923204c4154494e204341504954414c204c4554544552204f205749544820444f542041424f564520414e44204d4143524f4e),
  (58, 0x30783032333109096f0923204c4154494e20534d414c4c204c4554544552204f205749544820444f542041424f564520414e44204d4143524f4e),
  (46, 0x3078303233320909590923204c4154494e204341504954414c204c455454455220592057495448204d4143524f4e),
  (44, 0x3078303233330909790923204c4154494e20534d414c4c204c455454455220592057495448204d4143524f4e),
  (42, 0x30783032333409096c0923204c4154494e20534d414c4c204c4554544552204c2057495448204355524c),
  (42, 0x30783032333509096e0923204c4154494e20534d414c4c204c4554544552204e2057495448204355524c),
  (42, 0x3078303233360909740923204c4154494e20534d414c4c204c455454455220542057495448204355524c),
  (40, 0x30783032333709096a0923204c4154494e20534d414c4c204c455454455220444f544c455353204a),
  (42, 0x307830323338090964620923204c4154494e20534d414c4c204c45545445522044422044494752415048),
  (42, 0x307830323339090971700923204c4154494e20534d414c4c204c45545445522051502044494752415048),
  (46, 0x3078303233410909410923204c4154494e204341504954414c204c455454455220412057495448205354524f4b45),
  (46, 0x3078303233420909430923204c4154494e204341504954414c204c455454455220432057495448205354524f4b45),
  (44, 0x3078303233430909630923204c4154494e20534d414c4c204c455454455220432057495448205354524f4b45),
  (43, 0x30783032334409094c0923204c4154494e204341504954414c204c4554544552204c205749544820424152),
  (55, 0x3078303233450909540923204c4154494e204341504954414c204c45545445522054205749544820444941474f4e414c205354524f4b45),
  (48, 0x3078303233460909730923204c4154494e20534d414c4c204c455454455220532057495448205357415348205441494c),
  (0, 0x0),
  (48, 0x30783032343009097a0923204c4154494e20534d414c4c204c4554544552205a2057495448205357415348205441494c),
  (46, 0x3078303234330909420923204c4154494e204341504954414c204c455454455220422057495448205354524f4b45),
  (38, 0x3078303234340909550923204c4154494e204341504954414c204c4554544552205520424152),
  (41, 0x30783032343509095e0923204c4154494e204341504954414c204c4554544552205455524e45442056),
  (46, 0x3078303234360909450923204c4154494e204341504954414c204c455454455220452057495448205354524f4b45),
  (44, 0x3078303234370909650923204c4154494e20534d414c4c204c455454455220452057495448205354524f4b45),
  (46, 0x30783032343809094a0923204c4154494e204341504954414c204c4554544552204a2057495448205354524f4b45),
  (44, 0x30783032343909096a0923204c4154494e20534d414c4c204c4554544552204a2057495448205354524f4b45),
  (55, 0x3078303234410909710923204c4154494e204341504954414c204c455454455220534d414c4c2051205749544820484f4f4b205441494c),
  (47, 0x3078303234420909710923204c4154494e20534d414c4c204c45545445522051205749544820484f4f4b205441494c),
  (46, 0x3078303234430909520923204c4154494e204341504954414c204c455454455220522057495448205354524f4b45),
  (44, 0x3078303234440909720923204c4154494e20534d414c4c204c455454455220522057495448205354524f4b45),
  (46, 0x3078303234450909590923204c4154494e204341504954414c204c455454455220592057495448205354524f4b45),
  (44, 0x3078303234460909790923204c4154494e20534d414c4c204c455454455220592057495448205354524f4b45),
  (0, 0x0),
  (39, 0x3078303235300909610923204c4154494e20534d414c4c204c4554544552205455524e45442041),
  (36, 0x3078303235310909610923204c4154494e20534d414c4c204c455454455220414c504841),
  (43, 0x3078303235320909610923204c4154494e20534d414c4c204c4554544552205455524e454420414c504841),
  (42, 0x3078303235330909620923204c4154494e20534d414c4c204c45545445522042205749544820484f4f4b),
  (37, 0x30783032353409096f0923204c4154494e20534d414c4c204c4554544552204f50454e204f),
  (42, 0x3078303235350909630923204c4154494e20534d414c4c204c455454455220432057495448204355524c),
  (42, 0x3078303235360909640923204c4154494e20534d414c4c204c455454455220442057495448205441494c),
  (42, 0x3078303235370909640923204c4154494e20534d414c4c204c45545445522044205749544820484f4f4b),
  (41, 0x3078303235380909650923204c4154494e20534d414c4c204c45545445522052455645525345442045),
  (36, 0x3078303235390909400923204c4154494e20534d414c4c204c4554544552205343485741),
  (46, 0x3078303235410909400923204c4154494e20534d414c4c204c4554544552205343485741205749544820484f4f4b),
  (37, 0x3078303235420909650923204c4154494e20534d414c4c204c4554544552204f50454e2045),
  (46, 0x3078303235430909650923204c4154494e20534d414c4c204c4554544552205245564552534544204f50454e2045),
  (56, 0x3078303235440909650923204c4154494e20534d414c4c204c4554544552205245564552534544204f50454e2045205749544820484f4f4b),
  (53, 0x3078303235450909650923204c4154494e20534d414c4c204c455454455220434c4f534544205245564552534544204f50454e2045),
  (52, 0x30783032354609096a0923204c4154494e20534d414c4c204c455454455220444f544c455353204a2057495448205354524f4b45),
  (0, 0x0),
  (42, 0x3078303236300909670923204c4154494e20534d414c4c204c45545445522047205749544820484f4f4b),
  (39, 0x3078303236310909670923204c4154494e20534d414c4c204c4554544552205343524950542047),
  (40, 0x3078303236320909670923204c4154494e204c455454455220534d414c4c204341504954414c2047),
  (36, 0x3078303236330909670923204c4154494e20534d414c4c204c45545445522047414d4d41),
  (40, 0x3078303236340909750923204c4154494e20534d414c4c204c45545445522052414d5320484f524e),
  (39, 0x3078303236350909590923204c4154494e20534d414c4c204c4554544552205455524e45442048),
  (42, 0x3078303236360909680923204c4154494e20534d414c4c204c45545445522048205749544820484f4f4b),
  (45, 0x3078303236370909680923204c4154494e20534d414c4c204c45545445522048454e47205749544820484f4f4b),
  (44, 0x3078303236380909690923204c4154494e20534d414c4c204c455454455220492057495448205354524f4b45),
  (35, 0x3078303236390909690923204c4154494e20534d414c4c204c455454455220494f5441),
  (40, 0x3078303236410909490923204c4154494e204c455454455220534d414c4c204341504954414c2049),
  (50, 0x30783032364209096c0923204c4154494e20534d414c4c204c4554544552204c2057495448204d4944444c452054494c4445),
  (42, 0x30783032364309096c0923204c4154494e20534d414c4c204c4554544552204c20574954482042454c54)]

/-- Lines 619-718 of table/legacy/unidecode.tbl. -/
def legacy_unidecode_8 : List (Nat × Nat) := [
  (52, 0x30783032364409096c0923204c4154494e20534d414c4c204c4554544552204c205749544820524554524f464c455820484f4f4b),
  (36, 0x30783032364509096c5a0923204c4154494e20534d414c4c204c4554544552204c455a48),
  (39, 0x3078303236460909570923204c4154494e20534d414c4c204c4554544552205455524e4544204d),
  (0, 0x0),
  (53, 0x3078303237300909570923204c4154494e20534d414c4c204c4554544552205455524e4544204d2057495448204c4f4e47204c4547),
  (42, 0x30783032373109096d0923204c4154494e20534d414c4c204c4554544552204d205749544820484f4f4b),
  (47, 0x30783032373209096e0923204c4154494e20534d414c4c204c4554544552204e2057495448204c45465420484f4f4b),
  (52, 0x30783032373309096e0923204c4154494e20534d414c4c204c4554544552204e205749544820524554524f464c455820484f4f4b),
  (40, 0x30783032373409096e0923204c4154494e204c455454455220534d414c4c204341504954414c204e),
  (39, 0x30783032373509096f0923204c4154494e20534d414c4c204c455454455220424152524544204f),
  (42, 0x30783032373609094f450923204c4154494e204c455454455220534d414c4c204341504954414c204f45),
  (43, 0x30783032373709094f0923204c4154494e20534d414c4c204c455454455220434c4f534544204f4d454741),
  (34, 0x3078303237380909460923204c4154494e20534d414c4c204c455454455220504849),
  (39, 0x3078303237390909720923204c4154494e20534d414c4c204c4554544552205455524e45442052),
  (53, 0x3078303237410909720923204c4154494e20534d414c4c204c4554544552205455524e454420522057495448204c4f4e47204c4547),
  (49, 0x3078303237420909720923204c4154494e20534d414c4c204c4554544552205455524e45442052205749544820484f4f4b),
  (46, 0x3078303237430909720923204c4154494e20534d414c4c204c455454455220522057495448204c4f4e47204c4547),
  (42, 0x3078303237440909720923204c4154494e20534d414c4c204c455454455220522057495448205441494c),
  (46, 0x3078303237450909720923204c4154494e20534d414c4c204c4554544552205220574954482046495348484f4f4b),
  (55, 0x3078303237460909720923204c4154494e20534d414c4c204c4554544552205245564552534544205220574954482046495348484f4f4b),
  (0, 0x0),
  (40, 0x3078303238300909520923204c4154494e204c455454455220534d414c4c204341504954414c2052),
  (49, 0x3078303238310909520923204c4154494e204c455454455220534d414c4c204341504954414c20494e5645525445442052),
  (42, 0x3078303238320909730923204c4154494e20534d414c4c204c45545445522053205749544820484f4f4b),
  (34, 0x3078303238330909530923204c4154494e20534d414c4c204c455454455220455348),
  (61, 0x30783032383409096a0923204c4154494e20534d414c4c204c455454455220444f544c455353204a2057495448205354524f4b4520414e4420484f4f4b),
  (49, 0x3078303238350909530923204c4154494e20534d414c4c204c455454455220535155415420524556455253454420455348),
  (44, 0x3078303238360909530923204c4154494e20534d414c4c204c4554544552204553482057495448204355524c),
  (39, 0x3078303238370909740923204c4154494e20534d414c4c204c4554544552205455524e45442054),
  (52, 0x3078303238380909740923204c4154494e20534d414c4c204c45545445522054205749544820524554524f464c455820484f4f4b),
  (36, 0x3078303238390909750923204c4154494e20534d414c4c204c4554544552205520424152),
  (38, 0x3078303238410909550923204c4154494e20534d414c4c204c455454455220555053494c4f4e),
  (42, 0x3078303238420909760923204c4154494e20534d414c4c204c45545445522056205749544820484f4f4b),
  (39, 0x30783032384309095e0923204c4154494e20534d414c4c204c4554544552205455524e45442056),
  (39, 0x3078303238440909770923204c4154494e20534d414c4c204c4554544552205455524e45442057),
  (39, 0x3078303238450909790923204c4154494e20534d414c4c204c4554544552205455524e45442059),
  (40, 0x3078303238460909590923204c4154494e204c455454455220534d414c4c204341504954414c2059),
  (0, 0x0),
  (52, 0x30783032393009097a0923204c4154494e20534d414c4c204c4554544552205a205749544820524554524f464c455820484f4f4b),
  (42, 0x30783032393109097a0923204c4154494e20534d414c4c204c4554544552205a2057495448204355524c),
  (34, 0x30783032393209095a0923204c4154494e20534d414c4c204c455454455220455a48),
  (44, 0x30783032393309095a0923204c4154494e20534d414c4c204c455454455220455a482057495448204355524c),
  (36, 0x3078303239370909430923204c4154494e204c4554544552205354524554434845442043),
  (39, 0x3078303239380909400923204c4154494e204c45545445522042494c414249414c20434c49434b),
  (40, 0x3078303239390909420923204c4154494e204c455454455220534d414c4c204341504954414c2042),
  (44, 0x3078303239410909450923204c4154494e20534d414c4c204c455454455220434c4f534544204f50454e2045),
  (50, 0x3078303239420909470923204c4154494e204c455454455220534d414c4c204341504954414c2047205749544820484f4f4b),
  (40, 0x3078303239430909480923204c4154494e204c455454455220534d414c4c204341504954414c2048),
  (50, 0x30783032394409096a0923204c4154494e20534d414c4c204c4554544552204a20574954482043524f535345442d5441494c),
  (39, 0x30783032394509096b0923204c4154494e20534d414c4c204c4554544552205455524e4544204b),
  (40, 0x30783032394609094c0923204c4154494e204c455454455220534d414c4c204341504954414c204c),
  (0, 0x0),
  (42, 0x3078303241300909710923204c4154494e20534d414c4c204c45545445522051205749544820484f4f4b),
  (42, 0x3078303241330909647a0923204c4154494e20534d414c4c204c455454455220445a2044494752415048),
  (44, 0x3078303241340909645a0923204c4154494e20534d414c4c204c45545445522044455a482044494752415048),
  (52, 0x3078303241350909647a0923204c4154494e20534d414c4c204c455454455220445a20444947524150482057495448204355524c),
  (42, 0x307830324136090974730923204c4154494e20534d414c4c204c45545445522054532044494752415048),
  (44, 0x307830324137090974530923204c4154494e20534d414c4c204c455454455220544553482044494752415048),
  (52, 0x307830324138090974430923204c4154494e20534d414c4c204c455454455220544320444947524150482057495448204355524c),
  (44, 0x3078303241390909664e0923204c4154494e20534d414c4c204c45545445522046454e472044494752415048),
  (42, 0x30783032414109096c730923204c4154494e20534d414c4c204c4554544552204c532044494752415048),
  (42, 0x30783032414209096c7a0923204c4154494e20534d414c4c204c4554544552204c5a2044494752415048),
  (45, 0x307830324143090957570923204c4154494e204c45545445522042494c414249414c2050455243555353495645),
  (45, 0x30783032414409095d5d0923204c4154494e204c455454455220424944454e54414c2050455243555353495645),
  (53, 0x3078303241450909680923204c4154494e20534d414c4c204c4554544552205455524e4544204820574954482046495348484f4f4b),
  (62, 0x3078303241460909680923204c4154494e20534d414c4c204c4554544552205455524e4544204820574954482046495348484f4f4b20414e44205441494c),
  (0, 0x0),
  (35, 0x3078303242300909680923204d4f444946494552204c455454455220534d414c4c2048),
  (45, 0x3078303242310909680923204d4f444946494552204c455454455220534d414c4c2048205749544820484f4f4b),
  (35, 0x30783032423209096a0923204d4f444946494552204c455454455220534d414c4c204a),
  (35, 0x3078303242330909720923204d4f444946494552204c455454455220534d414c4c2052),
  (42, 0x3078303242340909720923204d4f444946494552204c455454455220534d414c4c205455524e45442052),
  (52, 0x3078303242350909720923204d4f444946494552204c455454455220534d414c4c205455524e45442052205749544820484f4f4b),
  (52, 0x3078303242360909720923204d4f444946494552204c455454455220534d414c4c204341504954414c20494e5645525445442052),
  (35, 0x3078303242370909770923204d4f444946494552204c455454455220534d414c4c2057),
  (35, 0x3078303242380909790923204d4f444946494552204c455454455220534d414c4c2059),
  (35, 0x30783032423909092227220923204d4f444946494552204c4554544552205052494d45),
  (42, 0x30783032424109092722270923204d4f444946494552204c455454455220444f55424c45205052494d45),
  (40, 0x3078303242420909600923204d4f444946494552204c4554544552205455524e454420434f4d4d41),
  (40, 0x30783032424309092227220923204d4f444946494552204c45545445522041504f5354524f504845),
  (42, 0x3078303242440909600923204d4f444946494552204c455454455220524556455253454420434f4d4d41),
  (43, 0x3078303242450909600923204d4f444946494552204c45545445522052494748542048414c462052494e47),
  (44, 0x30783032424609092227220923204d4f444946494552204c4554544552204c4546542048414c462052494e47),
  (0, 0x0),
  (42, 0x30783032433209093c0923204d4f444946494552204c4554544552204c454654204152524f5748454144),
  (43, 0x30783032433309093e0923204d4f444946494552204c4554544552205249474854204152524f5748454144),
  (40, 0x30783032433409095e0923204d4f444946494552204c4554544552205550204152524f5748454144),
  (42, 0x3078303243350909560923204d4f444946494552204c455454455220444f574e204152524f5748454144),
  (45, 0x30783032433609095e0923204d4f444946494552204c45545445522043495243554d464c455820414343454e54),
  (17, 0x3078303243370909560923204341524f4e),
  (43, 0x30783032433809092227220923204d4f444946494552204c455454455220564552544943414c204c494e45),
  (34, 0x30783032433909092d0923204d4f444946494552204c4554544552204d4143524f4e),
  (40, 0x30783032434109092f0923204d4f444946494552204c455454455220414355544520414343454e54),
  (40, 0x30783032434209095c0923204d4f444946494552204c455454455220475241564520414343454e54),
  (45, 0x30783032434309092c0923204d4f444946494552204c4554544552204c4f5720564552544943414c204c494e45),
  (38, 0x30783032434409095f0923204d4f444946494552204c4554544552204c4f57204d4143524f4e),
  (44, 0x30783032434509095c0923204d4f444946494552204c4554544552204c4f5720475241564520414343454e54),
  (44, 0x30783032434609092f0923204d4f444946494552204c4554544552204c4f5720414355544520414343454e54),
  (0, 0x0),
  (44, 0x30783032443009093a0923204d4f444946494552204c455454455220545249414e47554c415220434f4c4f4e)]

/-- Lines 719-818 of table/legacy/unidecode.tbl. -/
def legacy_unidecode_9 : List (Nat × Nat) := [
  (49, 0x30783032443109092e0923204d4f444946494552204c45545445522048414c4620545249414e47554c415220434f4c4f4e),
  (51, 0x3078303244320909600923204d4f444946494552204c45545445522043454e545245442052494748542048414c462052494e47),
  (52, 0x30783032443309092227220923204d4f444946494552204c45545445522043454e54524544204c4546542048414c462052494e47),
  (35, 0x30783032443409095e0923204d4f444946494552204c4554544552205550205441434b),
  (37, 0x3078303244350909560923204d4f444946494552204c455454455220444f574e205441434b),
  (37, 0x30783032443609092b0923204d4f444946494552204c455454455220504c5553205349474e),
  (38, 0x30783032443709092d0923204d4f444946494552204c4554544552204d494e5553205349474e),
  (17, 0x3078303244380909560923204252455645),
  (21, 0x30783032443909092e092320444f542041424f5645),
  (22, 0x30783032444109094009232052494e472041424f5645),
  (18, 0x30783032444209092c0923204f474f4e454b),
  (23, 0x30783032444309097e092320534d414c4c2054494c4445),
  (33, 0x3078303244440909272227092320444f55424c4520414355544520414343454e54),
  (39, 0x3078303244450909520923204d4f444946494552204c45545445522052484f54494320484f4f4b),
  (40, 0x3078303244460909580923204d4f444946494552204c45545445522043524f535320414343454e54),
  (0, 0x0),
  (39, 0x3078303245300909470923204d4f444946494552204c455454455220534d414c4c2047414d4d41),
  (35, 0x30783032453109096c0923204d4f444946494552204c455454455220534d414c4c204c),
  (35, 0x3078303245320909730923204d4f444946494552204c455454455220534d414c4c2053),
  (35, 0x3078303245330909780923204d4f444946494552204c455454455220534d414c4c2058),
  (35, 0x3078303245430909560923204d4f444946494552204c455454455220564f4943494e47),
  (39, 0x30783032454409093d0923204d4f444946494552204c455454455220554e415350495241544544),
  (47, 0x30783032454509092722270923204d4f444946494552204c455454455220444f55424c452041504f5354524f504845),
  (0, 0x0),
  (1, 0x23),
  (29, 0x2320436861726163746572732030783033303020746f20307830334646),
  (1, 0x23),
  (0, 0x0),
  (42, 0x307830333633090961092320434f4d42494e494e47204c4154494e20534d414c4c204c45545445522041),
  (42, 0x307830333634090965092320434f4d42494e494e47204c4154494e20534d414c4c204c45545445522045),
  (42, 0x307830333635090969092320434f4d42494e494e47204c4154494e20534d414c4c204c45545445522049),
  (42, 0x30783033363609096f092320434f4d42494e494e47204c4154494e20534d414c4c204c4554544552204f),
  (42, 0x307830333637090975092320434f4d42494e494e47204c4154494e20534d414c4c204c45545445522055),
  (42, 0x307830333638090963092320434f4d42494e494e47204c4154494e20534d414c4c204c45545445522043),
  (42, 0x307830333639090964092320434f4d42494e494e47204c4154494e20534d414c4c204c45545445522044),
  (42, 0x307830333641090968092320434f4d42494e494e47204c4154494e20534d414c4c204c45545445522048),
  (42, 0x30783033364209096d092320434f4d42494e494e47204c4154494e20534d414c4c204c4554544552204d),
  (42, 0x307830333643090972092320434f4d42494e494e47204c4154494e20534d414c4c204c45545445522052),
  (42, 0x307830333644090974092320434f4d42494e494e47204c4154494e20534d414c4c204c45545445522054),
  (42, 0x307830333645090976092320434f4d42494e494e47204c4154494e20534d414c4c204c45545445522056),
  (42, 0x307830333646090978092320434f4d42494e494e47204c4154494e20534d414c4c204c45545445522058),
  (0, 0x0),
  (32, 0x3078303337340909222722092320475245454b204e554d4552414c205349474e),
  (36, 0x30783033373509092c092320475245454b204c4f574552204e554d4552414c205349474e),
  (31, 0x30783033374509093f092320475245454b205155455354494f4e204d41524b),
  (49, 0x307830333836090941092320475245454b204341504954414c204c455454455220414c504841205749544820544f4e4f53),
  (28, 0x30783033383709093b092320475245454b20414e4f2054454c454941),
  (51, 0x307830333838090945092320475245454b204341504954414c204c455454455220455053494c4f4e205749544820544f4e4f53),
  (47, 0x307830333839090945092320475245454b204341504954414c204c455454455220455441205749544820544f4e4f53),
  (48, 0x307830333841090949092320475245454b204341504954414c204c455454455220494f5441205749544820544f4e4f53),
  (51, 0x30783033384309094f092320475245454b204341504954414c204c4554544552204f4d4943524f4e205749544820544f4e4f53),
  (51, 0x307830333845090955092320475245454b204341504954414c204c455454455220555053494c4f4e205749544820544f4e4f53),
  (49, 0x30783033384609094f092320475245454b204341504954414c204c4554544552204f4d454741205749544820544f4e4f53),
  (0, 0x0),
  (60, 0x307830333930090949092320475245454b20534d414c4c204c455454455220494f54412057495448204449414c5954494b4120414e4420544f4e4f53),
  (38, 0x307830333931090941092320475245454b204341504954414c204c455454455220414c504841),
  (37, 0x307830333932090942092320475245454b204341504954414c204c45545445522042455441),
  (38, 0x307830333933090947092320475245454b204341504954414c204c45545445522047414d4d41),
  (38, 0x307830333934090944092320475245454b204341504954414c204c45545445522044454c5441),
  (40, 0x307830333935090945092320475245454b204341504954414c204c455454455220455053494c4f4e),
  (37, 0x30783033393609095a092320475245454b204341504954414c204c4554544552205a455441),
  (36, 0x307830333937090945092320475245454b204341504954414c204c455454455220455441),
  (39, 0x30783033393809095468092320475245454b204341504954414c204c4554544552205448455441),
  (37, 0x307830333939090949092320475245454b204341504954414c204c455454455220494f5441),
  (38, 0x30783033394109094b092320475245454b204341504954414c204c4554544552204b41505041),
  (38, 0x30783033394209094c092320475245454b204341504954414c204c4554544552204c414d4441),
  (35, 0x30783033394309094d092320475245454b204341504954414c204c4554544552204d55),
  (35, 0x30783033394409094e092320475245454b204341504954414c204c4554544552204e55),
  (36, 0x30783033394509094b73092320475245454b204341504954414c204c4554544552205849),
  (40, 0x30783033394609094f092320475245454b204341504954414c204c4554544552204f4d4943524f4e),
  (0, 0x0),
  (35, 0x307830334130090950092320475245454b204341504954414c204c4554544552205049),
  (36, 0x307830334131090952092320475245454b204341504954414c204c45545445522052484f),
  (38, 0x307830334133090953092320475245454b204341504954414c204c4554544552205349474d41),
  (36, 0x307830334134090954092320475245454b204341504954414c204c455454455220544155),
  (40, 0x307830334135090955092320475245454b204341504954414c204c455454455220555053494c4f4e),
  (37, 0x30783033413609095068092320475245454b204341504954414c204c455454455220504849),
  (37, 0x30783033413709094b68092320475245454b204341504954414c204c455454455220434849),
  (37, 0x30783033413809095073092320475245454b204341504954414c204c455454455220505349),
  (38, 0x30783033413909094f092320475245454b204341504954414c204c4554544552204f4d454741),
  (52, 0x307830334141090949092320475245454b204341504954414c204c455454455220494f54412057495448204449414c5954494b41),
  (55, 0x307830334142090955092320475245454b204341504954414c204c455454455220555053494c4f4e2057495448204449414c5954494b41),
  (47, 0x307830334143090961092320475245454b20534d414c4c204c455454455220414c504841205749544820544f4e4f53),
  (49, 0x307830334144090965092320475245454b20534d414c4c204c455454455220455053494c4f4e205749544820544f4e4f53),
  (45, 0x307830334145090965092320475245454b20534d414c4c204c455454455220455441205749544820544f4e4f53),
  (46, 0x307830334146090969092320475245454b20534d414c4c204c455454455220494f5441205749544820544f4e4f53),
  (0, 0x0),
  (63, 0x307830334230090975092320475245454b20534d414c4c204c455454455220555053494c4f4e2057495448204449414c5954494b4120414e4420544f4e4f53),
  (36, 0x307830334231090961092320475245454b20534d414c4c204c455454455220414c504841),
  (35, 0x307830334232090962092320475245454b20534d414c4c204c45545445522042455441),
  (36, 0x307830334233090967092320475245454b20534d414c4c204c45545445522047414d4d41),
  (36, 0x307830334234090964092320475245454b20534d414c4c204c45545445522044454c5441),
  (38, 0x307830334235090965092320475245454b20534d414c4c204c455454455220455053494c4f4e),
  (35, 0x30783033423609097a092320475245454b20534d414c4c204c4554544552205a455441),
  (34, 0x307830334237090965092320475245454b20534d414c4c204c455454455220455441),
  (37, 0x30783033423809097468092320475245454b20534d414c4c204c4554544552205448455441),
  (35, 0x307830334239090969092320475245454b20534d414c4c204c455454455220494f5441),
  (36, 0x30783033424109096b092320475245454b20534d414c4c204c4554544552204b41505041),
  (36, 0x30783033424209096c092320475245454b20534d414c4c204c4554544552204c414d4441),
  (33, 0x30783033424309096d092320475245454b20534d414c4c204c4554544552204d55)]

/-- Lines 819-918 of table/legacy/unidecode.tbl. -/
def legacy_unidecode_10 : List (Nat × Nat) := [
  (33, 0x30783033424409096e092320475245454b20534d414c4c204c4554544552204e55),
  (33, 0x307830334245090978092320475245454b20534d414c4c204c4554544552205849),
  (38, 0x30783033424609096f092320475245454b20534d414c4c204c4554544552204f4d4943524f4e),
  (0, 0x0),
  (33, 0x307830334330090970092320475245454b20534d414c4c204c4554544552205049),
  (34, 0x307830334331090972092320475245454b20534d414c4c204c45545445522052484f),
  (42, 0x307830334332090973092320475245454b20534d414c4c204c45545445522046494e414c205349474d41),
  (36, 0x307830334333090973092320475245454b20534d414c4c204c4554544552205349474d41),
  (34, 0x307830334334090974092320475245454b20534d414c4c204c455454455220544155),
  (38, 0x307830334335090975092320475245454b20534d414c4c204c455454455220555053494c4f4e),
  (35, 0x30783033433609097068092320475245454b20534d414c4c204c455454455220504849),
  (35, 0x30783033433709096b68092320475245454b20534d414c4c204c455454455220434849),
  (35, 0x30783033433809097073092320475245454b20534d414c4c204c455454455220505349),
  (36, 0x30783033433909096f092320475245454b20534d414c4c204c4554544552204f4d454741),
  (50, 0x307830334341090969092320475245454b20534d414c4c204c455454455220494f54412057495448204449414c5954494b41),
  (53, 0x307830334342090975092320475245454b20534d414c4c204c455454455220555053494c4f4e2057495448204449414c5954494b41),
  (49, 0x30783033434309096f092320475245454b20534d414c4c204c4554544552204f4d4943524f4e205749544820544f4e4f53),
  (49, 0x307830334344090975092320475245454b20534d414c4c204c455454455220555053494c4f4e205749544820544f4e4f53),
  (47, 0x30783033434509096f092320475245454b20534d414c4c204c4554544552204f4d454741205749544820544f4e4f53),
  (0, 0x0),
  (29, 0x307830334430090962092320475245454b20424554412053594d424f4c),
  (31, 0x30783033443109097468092320475245454b2054484554412053594d424f4c),
  (42, 0x307830334432090955092320475245454b20555053494c4f4e205749544820484f4f4b2053594d424f4c),
  (52, 0x307830334433090955092320475245454b20555053494c4f4e205749544820414355544520414e4420484f4f4b2053594d424f4c),
  (56, 0x307830334434090955092320475245454b20555053494c4f4e20574954482044494145524553495320414e4420484f4f4b2053594d424f4c),
  (29, 0x30783033443509097068092320475245454b205048492053594d424f4c),
  (27, 0x307830334436090970092320475245454b2050492053594d424f4c),
  (28, 0x307830334437090926092320475245454b204b41492053594d424f4c),
  (32, 0x30783033444109095374092320475245454b204c455454455220535449474d41),
  (38, 0x30783033444209097374092320475245454b20534d414c4c204c455454455220535449474d41),
  (32, 0x307830334443090957092320475245454b204c455454455220444947414d4d41),
  (38, 0x307830334444090977092320475245454b20534d414c4c204c455454455220444947414d4d41),
  (30, 0x307830334445090951092320475245454b204c4554544552204b4f505041),
  (36, 0x307830334446090971092320475245454b20534d414c4c204c4554544552204b4f505041),
  (0, 0x0),
  (31, 0x30783033453009095370092320475245454b204c45545445522053414d5049),
  (37, 0x30783033453109097370092320475245454b20534d414c4c204c45545445522053414d5049),
  (39, 0x30783033453209095368092320434f50544943204341504954414c204c45545445522053484549),
  (37, 0x30783033453309097368092320434f5054494320534d414c4c204c45545445522053484549),
  (37, 0x307830334534090946092320434f50544943204341504954414c204c455454455220464549),
  (35, 0x307830334535090966092320434f5054494320534d414c4c204c455454455220464549),
  (39, 0x30783033453609094b68092320434f50544943204341504954414c204c4554544552204b484549),
  (37, 0x30783033453709096b68092320434f5054494320534d414c4c204c4554544552204b484549),
  (38, 0x307830334538090948092320434f50544943204341504954414c204c455454455220484f5249),
  (36, 0x307830334539090968092320434f5054494320534d414c4c204c455454455220484f5249),
  (40, 0x307830334541090947092320434f50544943204341504954414c204c45545445522047414e474941),
  (38, 0x307830334542090967092320434f5054494320534d414c4c204c45545445522047414e474941),
  (40, 0x30783033454309094348092320434f50544943204341504954414c204c4554544552205348494d41),
  (38, 0x30783033454409096368092320434f5054494320534d414c4c204c4554544552205348494d41),
  (38, 0x30783033454509095469092320434f50544943204341504954414c204c455454455220444549),
  (36, 0x30783033454609097469092320434f5054494320534d414c4c204c455454455220444549),
  (0, 0x0),
  (30, 0x30783033463009096b092320475245454b204b415050412053594d424f4c),
  (28, 0x307830334631090972092320475245454b2052484f2053594d424f4c),
  (37, 0x307830334632090963092320475245454b204c554e415445205349474d412053594d424f4c),
  (28, 0x30783033463309096a092320475245454b204c455454455220594f54),
  (0, 0x0),
  (1, 0x23),
  (29, 0x2320436861726163746572732030783034303020746f20307830344646),
  (1, 0x23),
  (0, 0x0),
  (50, 0x30783034303009094965092320435952494c4c4943204341504954414c204c45545445522049452057495448204752415645),
  (39, 0x3078303430310909496f092320435952494c4c4943204341504954414c204c455454455220494f),
  (40, 0x3078303430320909446a092320435952494c4c4943204341504954414c204c455454455220444a45),
  (40, 0x3078303430330909476a092320435952494c4c4943204341504954414c204c455454455220474a45),
  (48, 0x307830343034090945092320435952494c4c4943204341504954414c204c455454455220554b5241494e49414e204945),
  (40, 0x3078303430350909447a092320435952494c4c4943204341504954414c204c455454455220445a45),
  (60, 0x307830343036090949092320435952494c4c4943204341504954414c204c4554544552204259454c4f5255535349414e2d554b5241494e49414e2049),
  (39, 0x30783034303709095969092320435952494c4c4943204341504954414c204c4554544552205949),
  (38, 0x30783034303809094a092320435952494c4c4943204341504954414c204c4554544552204a45),
  (40, 0x30783034303909094c6a092320435952494c4c4943204341504954414c204c4554544552204c4a45),
  (40, 0x30783034304109094e6a092320435952494c4c4943204341504954414c204c4554544552204e4a45),
  (42, 0x3078303430420909547368092320435952494c4c4943204341504954414c204c45545445522054534845),
  (40, 0x30783034304309094b6a092320435952494c4c4943204341504954414c204c4554544552204b4a45),
  (48, 0x307830343044090949092320435952494c4c4943204341504954414c204c455454455220492057495448204752415645),
  (43, 0x307830343045090955092320435952494c4c4943204341504954414c204c45545445522053484f52542055),
  (42, 0x3078303430460909447a68092320435952494c4c4943204341504954414c204c455454455220445a4845),
  (0, 0x0),
  (37, 0x307830343130090941092320435952494c4c4943204341504954414c204c45545445522041),
  (38, 0x307830343131090942092320435952494c4c4943204341504954414c204c4554544552204245),
  (38, 0x307830343132090956092320435952494c4c4943204341504954414c204c4554544552205645),
  (39, 0x307830343133090947092320435952494c4c4943204341504954414c204c455454455220474845),
  (38, 0x307830343134090944092320435952494c4c4943204341504954414c204c4554544552204445),
  (38, 0x307830343135090945092320435952494c4c4943204341504954414c204c4554544552204945),
  (40, 0x30783034313609095a68092320435952494c4c4943204341504954414c204c4554544552205a4845),
  (38, 0x30783034313709095a092320435952494c4c4943204341504954414c204c4554544552205a45),
  (37, 0x307830343138090949092320435952494c4c4943204341504954414c204c45545445522049),
  (43, 0x307830343139090949092320435952494c4c4943204341504954414c204c45545445522053484f52542049),
  (38, 0x30783034314109094b092320435952494c4c4943204341504954414c204c4554544552204b41),
  (38, 0x30783034314209094c092320435952494c4c4943204341504954414c204c455454455220454c),
  (38, 0x30783034314309094d092320435952494c4c4943204341504954414c204c455454455220454d),
  (38, 0x30783034314409094e092320435952494c4c4943204341504954414c204c455454455220454e),
  (37, 0x30783034314509094f092320435952494c4c4943204341504954414c204c4554544552204f),
  (38, 0x307830343146090950092320435952494c4c4943204341504954414c204c4554544552205045),
  (0, 0x0),
  (38, 0x307830343230090952092320435952494c4c4943204341504954414c204c4554544552204552),
  (38, 0x307830343231090953092320435952494c4c4943204341504954414c204c4554544552204553),
  (38, 0x307830343232090954092320435952494c4c4943204341504954414c204c4554544552205445),
  (37, 0x307830343233090955092320435952494c4c4943204341504954414c204c45545445522055),
  (38, 0x307830343234090946092320435952494c4c4943204341504954414c204c4554544552204546)]

/-- Lines 919-1018 of table/legacy/unidecode.tbl. -/
def legacy_unidecode_11 : List (Nat × Nat) := [
  (39, 0x30783034323509094b68092320435952494c4c4943204341504954414c204c4554544552204841),
  (40, 0x30783034323609095473092320435952494c4c4943204341504954414c204c455454455220545345),
  (40, 0x30783034323709094368092320435952494c4c4943204341504954414c204c455454455220434845),
  (40, 0x30783034323809095368092320435952494c4c4943204341504954414c204c455454455220534841),
  (44, 0x307830343239090953686368092320435952494c4c4943204341504954414c204c4554544552205348434841),
  (40, 0x307830343242090959092320435952494c4c4943204341504954414c204c45545445522059455255),
  (47, 0x3078303432430909222722092320435952494c4c4943204341504954414c204c455454455220534f4654205349474e),
  (37, 0x307830343244090945092320435952494c4c4943204341504954414c204c45545445522045),
  (39, 0x30783034324509094975092320435952494c4c4943204341504954414c204c4554544552205955),
  (39, 0x30783034324609094961092320435952494c4c4943204341504954414c204c4554544552205941),
  (0, 0x0),
  (35, 0x307830343330090961092320435952494c4c494320534d414c4c204c45545445522041),
  (36, 0x307830343331090962092320435952494c4c494320534d414c4c204c4554544552204245),
  (36, 0x307830343332090976092320435952494c4c494320534d414c4c204c4554544552205645),
  (37, 0x307830343333090967092320435952494c4c494320534d414c4c204c455454455220474845),
  (36, 0x307830343334090964092320435952494c4c494320534d414c4c204c4554544552204445),
  (36, 0x307830343335090965092320435952494c4c494320534d414c4c204c4554544552204945),
  (38, 0x30783034333609097a68092320435952494c4c494320534d414c4c204c4554544552205a4845),
  (36, 0x30783034333709097a092320435952494c4c494320534d414c4c204c4554544552205a45),
  (35, 0x307830343338090969092320435952494c4c494320534d414c4c204c45545445522049),
  (41, 0x307830343339090969092320435952494c4c494320534d414c4c204c45545445522053484f52542049),
  (36, 0x30783034334109096b092320435952494c4c494320534d414c4c204c4554544552204b41),
  (36, 0x30783034334209096c092320435952494c4c494320534d414c4c204c455454455220454c),
  (36, 0x30783034334309096d092320435952494c4c494320534d414c4c204c455454455220454d),
  (36, 0x30783034334409096e092320435952494c4c494320534d414c4c204c455454455220454e),
  (35, 0x30783034334509096f092320435952494c4c494320534d414c4c204c4554544552204f),
  (36, 0x307830343346090970092320435952494c4c494320534d414c4c204c4554544552205045),
  (0, 0x0),
  (36, 0x307830343430090972092320435952494c4c494320534d414c4c204c4554544552204552),
  (36, 0x307830343431090973092320435952494c4c494320534d414c4c204c4554544552204553),
  (36, 0x307830343432090974092320435952494c4c494320534d414c4c204c4554544552205445),
  (35, 0x307830343433090975092320435952494c4c494320534d414c4c204c45545445522055),
  (36, 0x307830343434090966092320435952494c4c494320534d414c4c204c4554544552204546),
  (37, 0x30783034343509096b68092320435952494c4c494320534d414c4c204c4554544552204841),
  (38, 0x30783034343609097473092320435952494c4c494320534d414c4c204c455454455220545345),
  (38, 0x30783034343709096368092320435952494c4c494320534d414c4c204c455454455220434845),
  (38, 0x30783034343809097368092320435952494c4c494320534d414c4c204c455454455220534841),
  (42, 0x307830343439090973686368092320435952494c4c494320534d414c4c204c4554544552205348434841),
  (38, 0x307830343442090979092320435952494c4c494320534d414c4c204c45545445522059455255),
  (45, 0x3078303434430909222722092320435952494c4c494320534d414c4c204c455454455220534f4654205349474e),
  (35, 0x307830343444090965092320435952494c4c494320534d414c4c204c45545445522045),
  (37, 0x30783034344509096975092320435952494c4c494320534d414c4c204c4554544552205955),
  (37, 0x30783034344609096961092320435952494c4c494320534d414c4c204c4554544552205941),
  (0, 0x0),
  (48, 0x30783034353009096965092320435952494c4c494320534d414c4c204c45545445522049452057495448204752415645),
  (37, 0x3078303435310909696f092320435952494c4c494320534d414c4c204c455454455220494f),
  (38, 0x3078303435320909646a092320435952494c4c494320534d414c4c204c455454455220444a45),
  (38, 0x3078303435330909676a092320435952494c4c494320534d414c4c204c455454455220474a45),
  (47, 0x30783034353409096965092320435952494c4c494320534d414c4c204c455454455220554b5241494e49414e204945),
  (38, 0x3078303435350909647a092320435952494c4c494320534d414c4c204c455454455220445a45),
  (58, 0x307830343536090969092320435952494c4c494320534d414c4c204c4554544552204259454c4f5255535349414e2d554b5241494e49414e2049),
  (37, 0x30783034353709097969092320435952494c4c494320534d414c4c204c4554544552205949),
  (36, 0x30783034353809096a092320435952494c4c494320534d414c4c204c4554544552204a45),
  (38, 0x30783034353909096c6a092320435952494c4c494320534d414c4c204c4554544552204c4a45),
  (38, 0x30783034354109096e6a092320435952494c4c494320534d414c4c204c4554544552204e4a45),
  (40, 0x3078303435420909747368092320435952494c4c494320534d414c4c204c45545445522054534845),
  (38, 0x30783034354309096b6a092320435952494c4c494320534d414c4c204c4554544552204b4a45),
  (46, 0x307830343544090969092320435952494c4c494320534d414c4c204c455454455220492057495448204752415645),
  (41, 0x307830343545090975092320435952494c4c494320534d414c4c204c45545445522053484f52542055),
  (40, 0x3078303435460909647a68092320435952494c4c494320534d414c4c204c455454455220445a4845),
  (0, 0x0),
  (41, 0x30783034363009094f092320435952494c4c4943204341504954414c204c4554544552204f4d454741),
  (39, 0x30783034363109096f092320435952494c4c494320534d414c4c204c4554544552204f4d454741),
  (39, 0x307830343632090945092320435952494c4c4943204341504954414c204c455454455220594154),
  (37, 0x307830343633090965092320435952494c4c494320534d414c4c204c455454455220594154),
  (47, 0x30783034363409094965092320435952494c4c4943204341504954414c204c455454455220494f5449464945442045),
  (45, 0x30783034363509096965092320435952494c4c494320534d414c4c204c455454455220494f5449464945442045),
  (46, 0x307830343636090945092320435952494c4c4943204341504954414c204c4554544552204c4954544c4520595553),
  (44, 0x307830343637090965092320435952494c4c494320534d414c4c204c4554544552204c4954544c4520595553),
  (56, 0x30783034363809094965092320435952494c4c4943204341504954414c204c455454455220494f544946494544204c4954544c4520595553),
  (54, 0x30783034363909096965092320435952494c4c494320534d414c4c204c455454455220494f544946494544204c4954544c4520595553),
  (43, 0x30783034364109094f092320435952494c4c4943204341504954414c204c45545445522042494720595553),
  (41, 0x30783034364209096f092320435952494c4c494320534d414c4c204c45545445522042494720595553),
  (53, 0x3078303436430909496f092320435952494c4c4943204341504954414c204c455454455220494f5449464945442042494720595553),
  (51, 0x3078303436440909696f092320435952494c4c494320534d414c4c204c455454455220494f5449464945442042494720595553),
  (40, 0x30783034364509094b73092320435952494c4c4943204341504954414c204c4554544552204b5349),
  (38, 0x30783034364609096b73092320435952494c4c494320534d414c4c204c4554544552204b5349),
  (0, 0x0),
  (40, 0x30783034373009095073092320435952494c4c4943204341504954414c204c455454455220505349),
  (38, 0x30783034373109097073092320435952494c4c494320534d414c4c204c455454455220505349),
  (40, 0x307830343732090946092320435952494c4c4943204341504954414c204c45545445522046495441),
  (38, 0x307830343733090966092320435952494c4c494320534d414c4c204c45545445522046495441),
  (43, 0x307830343734090959092320435952494c4c4943204341504954414c204c455454455220495a4849545341),
  (41, 0x307830343735090979092320435952494c4c494320534d414c4c204c455454455220495a4849545341),
  (68, 0x307830343736090959092320435952494c4c4943204341504954414c204c455454455220495a4849545341205749544820444f55424c4520475241564520414343454e54),
  (66, 0x307830343737090979092320435952494c4c494320534d414c4c204c455454455220495a4849545341205749544820444f55424c4520475241564520414343454e54),
  (38, 0x307830343738090975092320435952494c4c4943204341504954414c204c455454455220554b),
  (36, 0x307830343739090975092320435952494c4c494320534d414c4c204c455454455220554b),
  (47, 0x30783034374109094f092320435952494c4c4943204341504954414c204c455454455220524f554e44204f4d454741),
  (45, 0x30783034374209096f092320435952494c4c494320534d414c4c204c455454455220524f554e44204f4d454741),
  (52, 0x30783034374309094f092320435952494c4c4943204341504954414c204c4554544552204f4d4547412057495448205449544c4f),
  (50, 0x30783034374409096f092320435952494c4c494320534d414c4c204c4554544552204f4d4547412057495448205449544c4f),
  (39, 0x30783034374509094f74092320435952494c4c4943204341504954414c204c4554544552204f54),
  (37, 0x30783034374609096f74092320435952494c4c494320534d414c4c204c4554544552204f54),
  (0, 0x0),
  (41, 0x307830343830090951092320435952494c4c4943204341504954414c204c4554544552204b4f505041),
  (39, 0x307830343831090971092320435952494c4c494320534d414c4c204c4554544552204b4f505041),
  (40, 0x30783034383209092a313030302a092320435952494c4c49432054484f5553414e4453205349474e),
  (61, 0x30783034383809092a3130302e3030302a092320434f4d42494e494e4720435952494c4c49432048554e445245442054484f5553414e4453205349474e),
  (54, 0x30783034383909092a312e3030302e3030302a092320434f4d42494e494e4720435952494c4c4943204d494c4c494f4e53205349474e)]

/-- Lines 1019-1118 of table/legacy/unidecode.tbl. -/
def legacy_unidecode_12 : List (Nat × Nat) := [
  (51, 0x3078303438430909272227092320435952494c4c4943204341504954414c204c45545445522053454d49534f4654205349474e),
  (49, 0x3078303438440909272227092320435952494c4c494320534d414c4c204c45545445522053454d49534f4654205349474e),
  (51, 0x307830343845090922522722092320435952494c4c4943204341504954414c204c45545445522045522057495448205449434b),
  (49, 0x307830343846090922722722092320435952494c4c494320534d414c4c204c45545445522045522057495448205449434b),
  (0, 0x0),
  (54, 0x307830343930090922472722092320435952494c4c4943204341504954414c204c45545445522047484520574954482055505455524e),
  (52, 0x307830343931090922672722092320435952494c4c494320534d414c4c204c45545445522047484520574954482055505455524e),
  (54, 0x307830343932090922472722092320435952494c4c4943204341504954414c204c4554544552204748452057495448205354524f4b45),
  (52, 0x307830343933090922672722092320435952494c4c494320534d414c4c204c4554544552204748452057495448205354524f4b45),
  (59, 0x307830343934090922472722092320435952494c4c4943204341504954414c204c4554544552204748452057495448204d4944444c4520484f4f4b),
  (57, 0x307830343935090922672722092320435952494c4c494320534d414c4c204c4554544552204748452057495448204d4944444c4520484f4f4b),
  (58, 0x3078303439360909225a682722092320435952494c4c4943204341504954414c204c4554544552205a484520574954482044455343454e444552),
  (56, 0x3078303439370909227a682722092320435952494c4c494320534d414c4c204c4554544552205a484520574954482044455343454e444552),
  (56, 0x3078303439380909225a2722092320435952494c4c4943204341504954414c204c4554544552205a4520574954482044455343454e444552),
  (54, 0x3078303439390909227a2722092320435952494c4c494320534d414c4c204c4554544552205a4520574954482044455343454e444552),
  (56, 0x3078303439410909224b2722092320435952494c4c4943204341504954414c204c4554544552204b4120574954482044455343454e444552),
  (54, 0x3078303439420909226b2722092320435952494c4c494320534d414c4c204c4554544552204b4120574954482044455343454e444552),
  (62, 0x3078303439430909224b2722092320435952494c4c4943204341504954414c204c4554544552204b41205749544820564552544943414c205354524f4b45),
  (60, 0x3078303439440909226b2722092320435952494c4c494320534d414c4c204c4554544552204b41205749544820564552544943414c205354524f4b45),
  (53, 0x3078303439450909224b2722092320435952494c4c4943204341504954414c204c4554544552204b412057495448205354524f4b45),
  (51, 0x3078303439460909226b2722092320435952494c4c494320534d414c4c204c4554544552204b412057495448205354524f4b45),
  (0, 0x0),
  (49, 0x3078303441300909224b2722092320435952494c4c4943204341504954414c204c455454455220424153484b4952204b41),
  (47, 0x3078303441310909226b2722092320435952494c4c494320534d414c4c204c455454455220424153484b4952204b41),
  (56, 0x3078303441320909224e2722092320435952494c4c4943204341504954414c204c455454455220454e20574954482044455343454e444552),
  (54, 0x3078303441330909226e2722092320435952494c4c494320534d414c4c204c455454455220454e20574954482044455343454e444552),
  (45, 0x30783034413409094e67092320435952494c4c4943204341504954414c204c4947415455524520454e20474845),
  (43, 0x30783034413509096e67092320435952494c4c494320534d414c4c204c4947415455524520454e20474845),
  (58, 0x307830344136090922502722092320435952494c4c4943204341504954414c204c45545445522050452057495448204d4944444c4520484f4f4b),
  (56, 0x307830344137090922702722092320435952494c4c494320534d414c4c204c45545445522050452057495448204d4944444c4520484f4f4b),
  (49, 0x30783034413809094b68092320435952494c4c4943204341504954414c204c45545445522041424b48415349414e204841),
  (47, 0x30783034413909096b68092320435952494c4c494320534d414c4c204c45545445522041424b48415349414e204841),
  (56, 0x307830344141090922532722092320435952494c4c4943204341504954414c204c455454455220455320574954482044455343454e444552),
  (54, 0x307830344142090922732722092320435952494c4c494320534d414c4c204c455454455220455320574954482044455343454e444552),
  (56, 0x307830344143090922542722092320435952494c4c4943204341504954414c204c455454455220544520574954482044455343454e444552),
  (54, 0x307830344144090922742722092320435952494c4c494320534d414c4c204c455454455220544520574954482044455343454e444552),
  (46, 0x307830344145090955092320435952494c4c4943204341504954414c204c45545445522053545241494748542055),
  (44, 0x307830344146090975092320435952494c4c494320534d414c4c204c45545445522053545241494748542055),
  (0, 0x0),
  (61, 0x307830344230090922552722092320435952494c4c4943204341504954414c204c455454455220535452414947485420552057495448205354524f4b45),
  (59, 0x307830344231090922752722092320435952494c4c494320534d414c4c204c455454455220535452414947485420552057495448205354524f4b45),
  (57, 0x3078303442320909224b682722092320435952494c4c4943204341504954414c204c455454455220484120574954482044455343454e444552),
  (55, 0x3078303442330909226b682722092320435952494c4c494320534d414c4c204c455454455220484120574954482044455343454e444552),
  (46, 0x3078303442340909547473092320435952494c4c4943204341504954414c204c4947415455524520544520545345),
  (44, 0x3078303442350909747473092320435952494c4c494320534d414c4c204c4947415455524520544520545345),
  (58, 0x30783034423609092243682722092320435952494c4c4943204341504954414c204c45545445522043484520574954482044455343454e444552),
  (56, 0x30783034423709092263682722092320435952494c4c494320534d414c4c204c45545445522043484520574954482044455343454e444552),
  (64, 0x30783034423809092243682722092320435952494c4c4943204341504954414c204c455454455220434845205749544820564552544943414c205354524f4b45),
  (62, 0x30783034423909092263682722092320435952494c4c494320534d414c4c204c455454455220434845205749544820564552544943414c205354524f4b45),
  (40, 0x307830344241090948092320435952494c4c4943204341504954414c204c45545445522053484841),
  (38, 0x307830344242090968092320435952494c4c494320534d414c4c204c45545445522053484841),
  (50, 0x30783034424309094368092320435952494c4c4943204341504954414c204c45545445522041424b48415349414e20434845),
  (48, 0x30783034424409096368092320435952494c4c494320534d414c4c204c45545445522041424b48415349414e20434845),
  (68, 0x30783034424509092243682722092320435952494c4c4943204341504954414c204c45545445522041424b48415349414e2043484520574954482044455343454e444552),
  (66, 0x30783034424609092263682722092320435952494c4c494320534d414c4c204c45545445522041424b48415349414e2043484520574954482044455343454e444552),
  (0, 0x0),
  (36, 0x307830344330090960092320435952494c4c4943204c45545445522050414c4f43484b41),
  (51, 0x30783034433109095a68092320435952494c4c4943204341504954414c204c4554544552205a48452057495448204252455645),
  (49, 0x30783034433209097a68092320435952494c4c494320534d414c4c204c4554544552205a48452057495448204252455645),
  (51, 0x3078303443330909224b2722092320435952494c4c4943204341504954414c204c4554544552204b41205749544820484f4f4b),
  (49, 0x3078303443340909226b2722092320435952494c4c494320534d414c4c204c4554544552204b41205749544820484f4f4b),
  (51, 0x3078303443370909224e2722092320435952494c4c4943204341504954414c204c455454455220454e205749544820484f4f4b),
  (49, 0x3078303443380909226e2722092320435952494c4c494320534d414c4c204c455454455220454e205749544820484f4f4b),
  (51, 0x30783034434209094368092320435952494c4c4943204341504954414c204c4554544552204b48414b41535349414e20434845),
  (49, 0x30783034434309096368092320435952494c4c494320534d414c4c204c4554544552204b48414b41535349414e20434845),
  (0, 0x0),
  (48, 0x307830344430090961092320435952494c4c4943204341504954414c204c455454455220412057495448204252455645),
  (46, 0x307830344431090961092320435952494c4c494320534d414c4c204c455454455220412057495448204252455645),
  (52, 0x307830344432090941092320435952494c4c4943204341504954414c204c45545445522041205749544820444941455245534953),
  (50, 0x307830344433090961092320435952494c4c494320534d414c4c204c45545445522041205749544820444941455245534953),
  (43, 0x30783034443409094165092320435952494c4c4943204341504954414c204c494741545552452041204945),
  (41, 0x30783034443509096165092320435952494c4c494320534d414c4c204c494741545552452041204945),
  (50, 0x30783034443609094965092320435952494c4c4943204341504954414c204c45545445522049452057495448204252455645),
  (48, 0x30783034443709096965092320435952494c4c494320534d414c4c204c45545445522049452057495448204252455645),
  (41, 0x307830344438090940092320435952494c4c4943204341504954414c204c4554544552205343485741),
  (39, 0x307830344439090940092320435952494c4c494320534d414c4c204c4554544552205343485741),
  (56, 0x307830344441090940092320435952494c4c4943204341504954414c204c4554544552205343485741205749544820444941455245534953),
  (54, 0x307830344442090940092320435952494c4c494320534d414c4c204c4554544552205343485741205749544820444941455245534953),
  (55, 0x30783034444309095a68092320435952494c4c4943204341504954414c204c4554544552205a4845205749544820444941455245534953),
  (53, 0x30783034444409097a68092320435952494c4c494320534d414c4c204c4554544552205a4845205749544820444941455245534953),
  (53, 0x30783034444509095a092320435952494c4c4943204341504954414c204c4554544552205a45205749544820444941455245534953),
  (51, 0x30783034444609097a092320435952494c4c494320534d414c4c204c4554544552205a45205749544820444941455245534953),
  (0, 0x0),
  (50, 0x3078303445300909447a092320435952494c4c4943204341504954414c204c45545445522041424b48415349414e20445a45),
  (48, 0x3078303445310909647a092320435952494c4c494320534d414c4c204c45545445522041424b48415349414e20445a45),
  (49, 0x307830344532090949092320435952494c4c4943204341504954414c204c455454455220492057495448204d4143524f4e),
  (47, 0x307830344533090969092320435952494c4c494320534d414c4c204c455454455220492057495448204d4143524f4e),
  (52, 0x307830344534090949092320435952494c4c4943204341504954414c204c45545445522049205749544820444941455245534953),
  (50, 0x307830344535090969092320435952494c4c494320534d414c4c204c45545445522049205749544820444941455245534953),
  (52, 0x30783034453609094f092320435952494c4c4943204341504954414c204c4554544552204f205749544820444941455245534953),
  (50, 0x30783034453709096f092320435952494c4c494320534d414c4c204c4554544552204f205749544820444941455245534953),
  (44, 0x30783034453809094f092320435952494c4c4943204341504954414c204c455454455220424152524544204f),
  (42, 0x30783034453909096f092320435952494c4c494320534d414c4c204c455454455220424152524544204f),
  (59, 0x30783034454109094f092320435952494c4c4943204341504954414c204c455454455220424152524544204f205749544820444941455245534953),
  (57, 0x30783034454209096f092320435952494c4c494320534d414c4c204c455454455220424152524544204f205749544820444941455245534953),
  (52, 0x307830344543090945092320435952494c4c4943204341504954414c204c45545445522045205749544820444941455245534953),
  (50, 0x307830344544090965092320435952494c4c494320534d414c4c204c45545445522045205749544820444941455245534953),
  (49, 0x307830344545090955092320435952494c4c4943204341504954414c204c455454455220552057495448204d4143524f4e),
  (47, 0x307830344546090975092320435952494c4c494320534d414c4c204c455454455220552057495448204d4143524f4e),
  (0, 0x0)]

/-- Lines 1119-1218 of table/legacy/unidecode.tbl. -/
def legacy_unidecode_13 : List (Nat × Nat) := [
  (52, 0x307830344630090955092320435952494c4c4943204341504954414c204c45545445522055205749544820444941455245534953),
  (50, 0x307830344631090975092320435952494c4c494320534d414c4c204c45545445522055205749544820444941455245534953),
  (55, 0x307830344632090955092320435952494c4c4943204341504954414c204c45545445522055205749544820444f55424c45204143555445),
  (53, 0x307830344633090975092320435952494c4c494320534d414c4c204c45545445522055205749544820444f55424c45204143555445),
  (55, 0x30783034463409094368092320435952494c4c4943204341504954414c204c455454455220434845205749544820444941455245534953),
  (53, 0x30783034463509096368092320435952494c4c494320534d414c4c204c455454455220434845205749544820444941455245534953),
  (55, 0x307830344638090959092320435952494c4c4943204341504954414c204c45545445522059455255205749544820444941455245534953),
  (53, 0x307830344639090979092320435952494c4c494320534d414c4c204c45545445522059455255205749544820444941455245534953),
  (0, 0x0),
  (1, 0x23),
  (29, 0x2320436861726163746572732030783035303020746f20307830354646),
  (1, 0x23),
  (0, 0x0),
  (39, 0x30783035333109094109232041524d454e49414e204341504954414c204c455454455220415942),
  (39, 0x30783035333209094209232041524d454e49414e204341504954414c204c45545445522042454e),
  (39, 0x30783035333309094709232041524d454e49414e204341504954414c204c45545445522047494d),
  (38, 0x30783035333409094409232041524d454e49414e204341504954414c204c4554544552204441),
  (39, 0x30783035333509094509232041524d454e49414e204341504954414c204c455454455220454348),
  (38, 0x30783035333609095a09232041524d454e49414e204341504954414c204c4554544552205a41),
  (38, 0x30783035333709094509232041524d454e49414e204341504954414c204c4554544552204548),
  (38, 0x30783035333809094509232041524d454e49414e204341504954414c204c4554544552204554),
  (39, 0x3078303533390909546009232041524d454e49414e204341504954414c204c455454455220544f),
  (40, 0x30783035334109095a6809232041524d454e49414e204341504954414c204c4554544552205a4845),
  (39, 0x30783035334209094909232041524d454e49414e204341504954414c204c455454455220494e49),
  (40, 0x30783035334309094c09232041524d454e49414e204341504954414c204c4554544552204c49574e),
  (40, 0x30783035334409094b6809232041524d454e49414e204341504954414c204c455454455220584548),
  (39, 0x3078303533450909547309232041524d454e49414e204341504954414c204c4554544552204341),
  (39, 0x30783035334609094b09232041524d454e49414e204341504954414c204c4554544552204b454e),
  (0, 0x0),
  (38, 0x30783035343009094809232041524d454e49414e204341504954414c204c455454455220484f),
  (39, 0x3078303534310909447a09232041524d454e49414e204341504954414c204c4554544552204a41),
  (41, 0x3078303534320909476809232041524d454e49414e204341504954414c204c45545445522047484144),
  (41, 0x3078303534330909436809232041524d454e49414e204341504954414c204c45545445522043484548),
  (39, 0x30783035343409094d09232041524d454e49414e204341504954414c204c4554544552204d454e),
  (38, 0x30783035343509095909232041524d454e49414e204341504954414c204c4554544552205949),
  (39, 0x30783035343609094e09232041524d454e49414e204341504954414c204c4554544552204e4f57),
  (40, 0x3078303534370909536809232041524d454e49414e204341504954414c204c455454455220534841),
  (38, 0x30783035343809094f09232041524d454e49414e204341504954414c204c455454455220564f),
  (41, 0x307830353439090943686009232041524d454e49414e204341504954414c204c455454455220434841),
  (39, 0x30783035344109095009232041524d454e49414e204341504954414c204c455454455220504548),
  (40, 0x30783035344209094a09232041524d454e49414e204341504954414c204c4554544552204a484548),
  (39, 0x3078303534430909526809232041524d454e49414e204341504954414c204c4554544552205241),
  (39, 0x30783035344409095309232041524d454e49414e204341504954414c204c455454455220534548),
  (39, 0x30783035344509095609232041524d454e49414e204341504954414c204c455454455220564557),
  (40, 0x30783035344609095409232041524d454e49414e204341504954414c204c4554544552205449574e),
  (0, 0x0),
  (39, 0x30783035353009095209232041524d454e49414e204341504954414c204c455454455220524548),
  (40, 0x307830353531090954736009232041524d454e49414e204341504954414c204c455454455220434f),
  (40, 0x30783035353209095709232041524d454e49414e204341504954414c204c4554544552205949574e),
  (41, 0x3078303535330909506009232041524d454e49414e204341504954414c204c45545445522050495752),
  (40, 0x30783035353409094b6009232041524d454e49414e204341504954414c204c4554544552204b4548),
  (38, 0x30783035353509094f09232041524d454e49414e204341504954414c204c4554544552204f48),
  (39, 0x30783035353609094609232041524d454e49414e204341504954414c204c455454455220464548),
  (51, 0x30783035353909093c09232041524d454e49414e204d4f444946494552204c4554544552204c4546542048414c462052494e47),
  (33, 0x307830353541090922272209232041524d454e49414e2041504f5354524f504845),
  (34, 0x30783035354209092f09232041524d454e49414e20454d504841534953204d41524b),
  (37, 0x30783035354309092109232041524d454e49414e204558434c414d4154494f4e204d41524b),
  (26, 0x30783035354409092c09232041524d454e49414e20434f4d4d41),
  (34, 0x30783035354509093f09232041524d454e49414e205155455354494f4e204d41524b),
  (38, 0x30783035354609092e09232041524d454e49414e20414242524556494154494f4e204d41524b),
  (37, 0x30783035363109096109232041524d454e49414e20534d414c4c204c455454455220415942),
  (37, 0x30783035363209096209232041524d454e49414e20534d414c4c204c45545445522042454e),
  (37, 0x30783035363309096709232041524d454e49414e20534d414c4c204c45545445522047494d),
  (36, 0x30783035363409096409232041524d454e49414e20534d414c4c204c4554544552204441),
  (37, 0x30783035363509096509232041524d454e49414e20534d414c4c204c455454455220454348),
  (36, 0x30783035363609097a09232041524d454e49414e20534d414c4c204c4554544552205a41),
  (36, 0x30783035363709096509232041524d454e49414e20534d414c4c204c4554544552204548),
  (36, 0x30783035363809096509232041524d454e49414e20534d414c4c204c4554544552204554),
  (37, 0x3078303536390909746009232041524d454e49414e20534d414c4c204c455454455220544f),
  (38, 0x30783035364109097a6809232041524d454e49414e20534d414c4c204c4554544552205a4845),
  (37, 0x30783035364209096909232041524d454e49414e20534d414c4c204c455454455220494e49),
  (38, 0x30783035364309096c09232041524d454e49414e20534d414c4c204c4554544552204c49574e),
  (38, 0x30783035364409096b6809232041524d454e49414e20534d414c4c204c455454455220584548),
  (37, 0x3078303536450909747309232041524d454e49414e20534d414c4c204c4554544552204341),
  (37, 0x30783035364609096b09232041524d454e49414e20534d414c4c204c4554544552204b454e),
  (0, 0x0),
  (36, 0x30783035373009096809232041524d454e49414e20534d414c4c204c455454455220484f),
  (37, 0x3078303537310909647a09232041524d454e49414e20534d414c4c204c4554544552204a41),
  (39, 0x3078303537320909676809232041524d454e49414e20534d414c4c204c45545445522047484144),
  (39, 0x3078303537330909636809232041524d454e49414e20534d414c4c204c45545445522043484548),
  (37, 0x30783035373409096d09232041524d454e49414e20534d414c4c204c4554544552204d454e),
  (36, 0x30783035373509097909232041524d454e49414e20534d414c4c204c4554544552205949),
  (37, 0x30783035373609096e09232041524d454e49414e20534d414c4c204c4554544552204e4f57),
  (38, 0x3078303537370909736809232041524d454e49414e20534d414c4c204c455454455220534841),
  (36, 0x30783035373809096f09232041524d454e49414e20534d414c4c204c455454455220564f),
  (39, 0x307830353739090963686009232041524d454e49414e20534d414c4c204c455454455220434841),
  (37, 0x30783035374109097009232041524d454e49414e20534d414c4c204c455454455220504548),
  (38, 0x30783035374209096a09232041524d454e49414e20534d414c4c204c4554544552204a484548),
  (37, 0x3078303537430909726809232041524d454e49414e20534d414c4c204c4554544552205241),
  (37, 0x30783035374409097309232041524d454e49414e20534d414c4c204c455454455220534548),
  (37, 0x30783035374509097609232041524d454e49414e20534d414c4c204c455454455220564557),
  (38, 0x30783035374609097409232041524d454e49414e20534d414c4c204c4554544552205449574e),
  (0, 0x0),
  (37, 0x30783035383009097209232041524d454e49414e20534d414c4c204c455454455220524548),
  (38, 0x307830353831090974736009232041524d454e49414e20534d414c4c204c455454455220434f),
  (38, 0x30783035383209097709232041524d454e49414e20534d414c4c204c4554544552205949574e),
  (39, 0x3078303538330909706009232041524d454e49414e20534d414c4c204c45545445522050495752),
  (38, 0x30783035383409096b6009232041524d454e49414e20534d414c4c204c4554544552204b4548),
  (36, 0x30783035383509096f09232041524d454e49414e20534d414c4c204c4554544552204f48),
  (37, 0x30783035383609096609232041524d454e49414e20534d414c4c204c455454455220464548)]

/-- Lines 1219-1318 of table/legacy/unidecode.tbl. -/
def legacy_unidecode_14 : List (Nat × Nat) := [
  (45, 0x3078303538370909657709232041524d454e49414e20534d414c4c204c4947415455524520454348205949574e),
  (30, 0x30783035383909092e09232041524d454e49414e2046554c4c2053544f50),
  (27, 0x30783035384109092d09232041524d454e49414e2048595048454e),
  (0, 0x0),
  (30, 0x30783035423009094009232048454252455720504f494e54205348455641),
  (36, 0x30783035423109096509232048454252455720504f494e54204841544146205345474f4c),
  (36, 0x30783035423209096109232048454252455720504f494e54204841544146205041544148),
  (37, 0x30783035423309096f09232048454252455720504f494e542048415441462051414d415453),
  (30, 0x30783035423409096909232048454252455720504f494e54204849524951),
  (30, 0x30783035423509096509232048454252455720504f494e54205453455245),
  (30, 0x30783035423609096509232048454252455720504f494e54205345474f4c),
  (30, 0x30783035423709096109232048454252455720504f494e54205041544148),
  (31, 0x30783035423809096109232048454252455720504f494e542051414d415453),
  (30, 0x30783035423909096f09232048454252455720504f494e5420484f4c414d),
  (31, 0x30783035424209097509232048454252455720504f494e5420515542555453),
  (42, 0x307830354243090922272209232048454252455720504f494e5420444147455348204f52204d41504951),
  (0, 0x0),
  (36, 0x30783035433009097c0923204845425245572050554e4354554154494f4e205041534551),
  (40, 0x30783035433309093a0923204845425245572050554e4354554154494f4e20534f46205041535551),
  (0, 0x0),
  (29, 0x307830354431090962092320484542524557204c455454455220424554),
  (31, 0x307830354432090967092320484542524557204c45545445522047494d454c),
  (31, 0x307830354433090964092320484542524557204c45545445522044414c4554),
  (28, 0x307830354434090968092320484542524557204c4554544552204845),
  (29, 0x307830354435090976092320484542524557204c455454455220564156),
  (31, 0x30783035443609097a092320484542524557204c4554544552205a4159494e),
  (30, 0x30783035443709096b68092320484542524557204c455454455220484554),
  (29, 0x307830354438090974092320484542524557204c455454455220544554),
  (29, 0x307830354439090979092320484542524557204c455454455220594f44),
  (35, 0x30783035444109096b092320484542524557204c45545445522046494e414c204b4146),
  (29, 0x30783035444209096b092320484542524557204c4554544552204b4146),
  (31, 0x30783035444309096c092320484542524557204c4554544552204c414d4544),
  (35, 0x30783035444409096d092320484542524557204c45545445522046494e414c204d454d),
  (29, 0x30783035444509096d092320484542524557204c4554544552204d454d),
  (35, 0x30783035444609096e092320484542524557204c45545445522046494e414c204e554e),
  (0, 0x0),
  (29, 0x30783035453009096e092320484542524557204c4554544552204e554e),
  (32, 0x307830354531090973092320484542524557204c45545445522053414d454b48),
  (30, 0x307830354532090960092320484542524557204c4554544552204159494e),
  (34, 0x307830354533090970092320484542524557204c45545445522046494e414c205045),
  (28, 0x307830354534090970092320484542524557204c4554544552205045),
  (38, 0x30783035453509097473092320484542524557204c45545445522046494e414c205453414449),
  (32, 0x30783035453609097473092320484542524557204c4554544552205453414449),
  (29, 0x307830354537090971092320484542524557204c455454455220514f46),
  (30, 0x307830354538090972092320484542524557204c45545445522052455348),
  (31, 0x30783035453909097368092320484542524557204c4554544552205348494e),
  (29, 0x307830354541090974092320484542524557204c455454455220544156),
  (0, 0x0),
  (46, 0x307830354630090956092320484542524557204c49474154555245205949444449534820444f55424c4520564156),
  (44, 0x30783035463109096f79092320484542524557204c4947415455524520594944444953482056415620594f44),
  (46, 0x307830354632090969092320484542524557204c49474154555245205949444449534820444f55424c4520594f44),
  (39, 0x30783035463309092227220923204845425245572050554e4354554154494f4e20474552455348),
  (42, 0x30783035463409092722270923204845425245572050554e4354554154494f4e2047455253484159494d),
  (0, 0x0),
  (1, 0x23),
  (29, 0x2320436861726163746572732030783036303020746f20307830364646),
  (1, 0x23),
  (0, 0x0),
  (24, 0x30783036304309092c09232041524142494320434f4d4d41),
  (0, 0x0),
  (28, 0x30783036314209093b0923204152414249432053454d49434f4c4f4e),
  (32, 0x30783036314609093f092320415241424943205155455354494f4e204d41524b),
  (47, 0x307830363232090961092320415241424943204c455454455220414c45462057495448204d414444412041424f5645),
  (49, 0x3078303632330909222722092320415241424943204c455454455220414c454620574954482048414d5a412041424f5645),
  (49, 0x307830363234090922772722092320415241424943204c45545445522057415720574954482048414d5a412041424f5645),
  (49, 0x307830363236090922792722092320415241424943204c45545445522059454820574954482048414d5a412041424f5645),
  (29, 0x307830363238090962092320415241424943204c455454455220424548),
  (37, 0x307830363239090940092320415241424943204c455454455220544548204d415242555441),
  (29, 0x307830363241090974092320415241424943204c455454455220544548),
  (31, 0x30783036324209097468092320415241424943204c45545445522054484548),
  (30, 0x30783036324309096a092320415241424943204c4554544552204a45454d),
  (29, 0x307830363244090948092320415241424943204c455454455220484148),
  (31, 0x30783036324509096b68092320415241424943204c4554544552204b484148),
  (29, 0x307830363246090964092320415241424943204c45545445522044414c),
  (0, 0x0),
  (31, 0x30783036333009096468092320415241424943204c4554544552205448414c),
  (29, 0x307830363331090972092320415241424943204c455454455220524548),
  (30, 0x30783036333209097a092320415241424943204c4554544552205a41494e),
  (30, 0x307830363333090973092320415241424943204c4554544552205345454e),
  (32, 0x30783036333409097368092320415241424943204c455454455220534845454e),
  (29, 0x307830363335090953092320415241424943204c455454455220534144),
  (29, 0x307830363336090944092320415241424943204c455454455220444144),
  (29, 0x307830363337090954092320415241424943204c455454455220544148),
  (29, 0x30783036333809095a092320415241424943204c4554544552205a4148),
  (29, 0x307830363339090960092320415241424943204c45545445522041494e),
  (31, 0x307830363341090947092320415241424943204c455454455220474841494e),
  (0, 0x0),
  (29, 0x307830363431090966092320415241424943204c455454455220464548),
  (29, 0x307830363432090971092320415241424943204c455454455220514146),
  (29, 0x30783036343309096b092320415241424943204c4554544552204b4146),
  (29, 0x30783036343409096c092320415241424943204c4554544552204c414d),
  (30, 0x30783036343509096d092320415241424943204c4554544552204d45454d),
  (30, 0x30783036343609096e092320415241424943204c4554544552204e4f4f4e),
  (29, 0x307830363437090968092320415241424943204c455454455220484548),
  (29, 0x307830363438090977092320415241424943204c455454455220574157),
  (38, 0x30783036343909097e092320415241424943204c455454455220414c4546204d414b53555241),
  (29, 0x307830363441090979092320415241424943204c455454455220594548),
  (28, 0x3078303634420909616e09232041524142494320464154484154414e),
  (28, 0x3078303634430909756e0923204152414249432044414d4d4154414e),
  (28, 0x3078303634440909696e092320415241424943204b4153524154414e)]

/-- Lines 1319-1418 of table/legacy/unidecode.tbl. -/
def legacy_unidecode_15 : List (Nat × Nat) := [
  (24, 0x307830363445090961092320415241424943204641544841),
  (24, 0x3078303634460909750923204152414249432044414d4d41),
  (0, 0x0),
  (24, 0x307830363530090969092320415241424943204b41535241),
  (25, 0x30783036353109095709232041524142494320534841444441),
  (32, 0x30783036353409092227220923204152414249432048414d5a412041424f5645),
  (32, 0x30783036353509092227220923204152414249432048414d5a412042454c4f57),
  (0, 0x0),
  (35, 0x3078303636300909300923204152414249432d494e444943204449474954205a45524f),
  (34, 0x3078303636310909310923204152414249432d494e444943204449474954204f4e45),
  (34, 0x3078303636320909320923204152414249432d494e4449432044494749542054574f),
  (36, 0x3078303636330909330923204152414249432d494e444943204449474954205448524545),
  (35, 0x3078303636340909340923204152414249432d494e44494320444947495420464f5552),
  (35, 0x3078303636350909350923204152414249432d494e4449432044494749542046495645),
  (34, 0x3078303636360909360923204152414249432d494e44494320444947495420534958),
  (36, 0x3078303636370909370923204152414249432d494e44494320444947495420534556454e),
  (36, 0x3078303636380909380923204152414249432d494e444943204449474954204549474854),
  (35, 0x3078303636390909390923204152414249432d494e444943204449474954204e494e45),
  (31, 0x3078303636410909250923204152414249432050455243454e54205349474e),
  (36, 0x30783036364209092e09232041524142494320444543494d414c20534550415241544f52),
  (38, 0x30783036364309092c0923204152414249432054484f5553414e445320534550415241544f52),
  (36, 0x30783036364409092a092320415241424943204649564520504f494e5445442053544152),
  (0, 0x0),
  (38, 0x3078303637310909222722092320415241424943204c455454455220414c4546205741534c41),
  (54, 0x3078303637320909222722092320415241424943204c455454455220414c4546205749544820574156592048414d5a412041424f5645),
  (54, 0x3078303637330909222722092320415241424943204c455454455220414c4546205749544820574156592048414d5a412042454c4f57),
  (43, 0x3078303637350909222722092320415241424943204c455454455220484947482048414d5a4120414c4546),
  (43, 0x307830363736090922277722092320415241424943204c455454455220484947482048414d5a4120574157),
  (47, 0x307830363737090922277522092320415241424943204c4554544552205520574954482048414d5a412041424f5645),
  (43, 0x307830363738090922277922092320415241424943204c455454455220484947482048414d5a4120594548),
  (31, 0x30783036373909097474092320415241424943204c45545445522054544548),
  (34, 0x3078303637410909747468092320415241424943204c455454455220545445484548),
  (30, 0x307830363742090962092320415241424943204c45545445522042454548),
  (39, 0x307830363743090974092320415241424943204c45545445522054454820574954482052494e47),
  (61, 0x307830363744090954092320415241424943204c455454455220544548205749544820544852454520444f54532041424f564520444f574e5741524453),
  (29, 0x307830363745090970092320415241424943204c455454455220504548),
  (32, 0x30783036374609097468092320415241424943204c4554544552205445484548),
  (0, 0x0),
  (32, 0x30783036383009096268092320415241424943204c4554544552204245484548),
  (49, 0x307830363831090922276822092320415241424943204c45545445522048414820574954482048414d5a412041424f5645),
  (58, 0x307830363832090948092320415241424943204c45545445522048414820574954482054574f20444f545320564552544943414c2041424f5645),
  (31, 0x30783036383309096e79092320415241424943204c4554544552204e594548),
  (31, 0x30783036383409096479092320415241424943204c45545445522044594548),
  (51, 0x307830363835090948092320415241424943204c455454455220484148205749544820544852454520444f54532041424f5645),
  (32, 0x30783036383609096368092320415241424943204c4554544552205443484548),
  (35, 0x3078303638370909636368092320415241424943204c45545445522054434845484548),
  (31, 0x30783036383809096464092320415241424943204c4554544552204444414c),
  (39, 0x307830363839090944092320415241424943204c45545445522044414c20574954482052494e47),
  (44, 0x307830363841090944092320415241424943204c45545445522044414c205749544820444f542042454c4f57),
  (59, 0x30783036384209094474092320415241424943204c45545445522044414c205749544820444f542042454c4f5720414e4420534d414c4c20544148),
  (32, 0x30783036384309096468092320415241424943204c455454455220444148414c),
  (34, 0x3078303638440909646468092320415241424943204c45545445522044444148414c),
  (29, 0x307830363845090964092320415241424943204c45545445522044554c),
  (61, 0x307830363846090944092320415241424943204c45545445522044414c205749544820544852454520444f54532041424f564520444f574e5741524453),
  (0, 0x0),
  (50, 0x307830363930090944092320415241424943204c45545445522044414c205749544820464f555220444f54532041424f5645),
  (31, 0x30783036393109097272092320415241424943204c45545445522052524548),
  (42, 0x307830363932090952092320415241424943204c455454455220524548205749544820534d414c4c2056),
  (39, 0x307830363933090952092320415241424943204c45545445522052454820574954482052494e47),
  (44, 0x307830363934090952092320415241424943204c455454455220524548205749544820444f542042454c4f57),
  (48, 0x307830363935090952092320415241424943204c455454455220524548205749544820534d414c4c20562042454c4f57),
  (58, 0x307830363936090952092320415241424943204c455454455220524548205749544820444f542042454c4f5720414e4420444f542041424f5645),
  (49, 0x307830363937090952092320415241424943204c45545445522052454820574954482054574f20444f54532041424f5645),
  (29, 0x30783036393809096a092320415241424943204c4554544552204a4548),
  (50, 0x307830363939090952092320415241424943204c455454455220524548205749544820464f555220444f54532041424f5645),
  (59, 0x307830363941090953092320415241424943204c4554544552205345454e205749544820444f542042454c4f5720414e4420444f542041424f5645),
  (52, 0x307830363942090953092320415241424943204c4554544552205345454e205749544820544852454520444f54532042454c4f57),
  (73, 0x307830363943090953092320415241424943204c4554544552205345454e205749544820544852454520444f54532042454c4f5720414e4420544852454520444f54532041424f5645),
  (49, 0x307830363944090953092320415241424943204c45545445522053414420574954482054574f20444f54532042454c4f57),
  (51, 0x307830363945090953092320415241424943204c455454455220534144205749544820544852454520444f54532041424f5645),
  (51, 0x307830363946090954092320415241424943204c455454455220544148205749544820544852454520444f54532041424f5645),
  (0, 0x0),
  (52, 0x30783036413009094748092320415241424943204c45545445522041494e205749544820544852454520444f54532041424f5645),
  (37, 0x307830364131090946092320415241424943204c455454455220444f544c45535320464548),
  (50, 0x307830364132090946092320415241424943204c455454455220464548205749544820444f54204d4f5645442042454c4f57),
  (44, 0x307830364133090946092320415241424943204c455454455220464548205749544820444f542042454c4f57),
  (29, 0x307830364134090976092320415241424943204c455454455220564548),
  (51, 0x307830364135090966092320415241424943204c455454455220464548205749544820544852454520444f54532042454c4f57),
  (32, 0x30783036413609097068092320415241424943204c4554544552205045484548),
  (44, 0x307830364137090951092320415241424943204c455454455220514146205749544820444f542041424f5645),
  (51, 0x307830364138090951092320415241424943204c455454455220514146205749544820544852454520444f54532041424f5645),
  (32, 0x30783036413909096b68092320415241424943204c4554544552204b45484548),
  (35, 0x30783036414109096b092320415241424943204c4554544552205357415348204b4146),
  (39, 0x30783036414209094b092320415241424943204c4554544552204b414620574954482052494e47),
  (44, 0x30783036414309094b092320415241424943204c4554544552204b4146205749544820444f542041424f5645),
  (29, 0x30783036414409096e67092320415241424943204c4554544552204e47),
  (51, 0x30783036414509094b092320415241424943204c4554544552204b4146205749544820544852454520444f54532042454c4f57),
  (29, 0x307830364146090967092320415241424943204c455454455220474146),
  (0, 0x0),
  (39, 0x307830364230090947092320415241424943204c45545445522047414620574954482052494e47),
  (31, 0x30783036423109094e092320415241424943204c4554544552204e474f4548),
  (49, 0x307830364232090947092320415241424943204c45545445522047414620574954482054574f20444f54532042454c4f57),
  (30, 0x307830364233090947092320415241424943204c45545445522047554548),
  (51, 0x307830364234090947092320415241424943204c455454455220474146205749544820544852454520444f54532041424f5645),
  (42, 0x30783036423509094c092320415241424943204c4554544552204c414d205749544820534d414c4c2056),
  (44, 0x30783036423609094c092320415241424943204c4554544552204c414d205749544820444f542041424f5645),
  (51, 0x30783036423709094c092320415241424943204c4554544552204c414d205749544820544852454520444f54532041424f5645),
  (51, 0x30783036423809094c092320415241424943204c4554544552204c414d205749544820544852454520444f54532042454c4f57),
  (45, 0x30783036423909094e092320415241424943204c4554544552204e4f4f4e205749544820444f542042454c4f57),
  (37, 0x30783036424109094e092320415241424943204c4554544552204e4f4f4e204748554e4e41)]

/-- Lines 1419-1518 of table/legacy/unidecode.tbl. -/
def legacy_unidecode_16 : List (Nat × Nat) := [
  (31, 0x30783036424209094e092320415241424943204c455454455220524e4f4f4e),
  (40, 0x30783036424309094e092320415241424943204c4554544552204e4f4f4e20574954482052494e47),
  (52, 0x30783036424409094e092320415241424943204c4554544552204e4f4f4e205749544820544852454520444f54532041424f5645),
  (41, 0x307830364245090968092320415241424943204c45545445522048454820444f4143484153484d4545),
  (47, 0x30783036424609094368092320415241424943204c4554544552205443484548205749544820444f542041424f5645),
  (0, 0x0),
  (45, 0x30783036433009096879092320415241424943204c4554544552204845482057495448205945482041424f5645),
  (34, 0x307830364331090968092320415241424943204c45545445522048454820474f414c),
  (51, 0x307830364332090948092320415241424943204c45545445522048454820474f414c20574954482048414d5a412041424f5645),
  (42, 0x307830364333090940092320415241424943204c455454455220544548204d41524255544120474f414c),
  (39, 0x307830364334090957092320415241424943204c45545445522057415720574954482052494e47),
  (37, 0x30783036433509096f65092320415241424943204c4554544552204b49524748495a204f45),
  (29, 0x30783036433609096f65092320415241424943204c4554544552204f45),
  (27, 0x307830364337090975092320415241424943204c45545445522055),
  (29, 0x30783036433809097975092320415241424943204c4554544552205955),
  (37, 0x30783036433909097975092320415241424943204c4554544552204b49524748495a205955),
  (49, 0x307830364341090957092320415241424943204c45545445522057415720574954482054574f20444f54532041424f5645),
  (28, 0x307830364342090976092320415241424943204c4554544552205645),
  (35, 0x307830364343090979092320415241424943204c455454455220464152534920594548),
  (39, 0x307830364344090959092320415241424943204c4554544552205945482057495448205441494c),
  (42, 0x307830364345090959092320415241424943204c455454455220594548205749544820534d414c4c2056),
  (44, 0x307830364346090957092320415241424943204c455454455220574157205749544820444f542041424f5645),
  (0, 0x0),
  (36, 0x307830364432090979092320415241424943204c45545445522059454820424152524545),
  (56, 0x307830364433090922792722092320415241424943204c4554544552205945482042415252454520574954482048414d5a412041424f5645),
  (28, 0x30783036443409092e0923204152414249432046554c4c2053544f50),
  (29, 0x30783036443509096165092320415241424943204c4554544552204145),
  (30, 0x30783036444409094009232041524142494320454e44204f462041594148),
  (39, 0x307830364445090923092320415241424943205354415254204f462052554220454c2048495a42),
  (0, 0x0),
  (34, 0x30783036453909095e09232041524142494320504c414345204f462053414a444148),
  (0, 0x0),
  (44, 0x307830364630090930092320455854454e444544204152414249432d494e444943204449474954205a45524f),
  (43, 0x307830364631090931092320455854454e444544204152414249432d494e444943204449474954204f4e45),
  (43, 0x307830364632090932092320455854454e444544204152414249432d494e4449432044494749542054574f),
  (45, 0x307830364633090933092320455854454e444544204152414249432d494e444943204449474954205448524545),
  (44, 0x307830364634090934092320455854454e444544204152414249432d494e44494320444947495420464f5552),
  (44, 0x307830364635090935092320455854454e444544204152414249432d494e4449432044494749542046495645),
  (43, 0x307830364636090936092320455854454e444544204152414249432d494e44494320444947495420534958),
  (45, 0x307830364637090937092320455854454e444544204152414249432d494e44494320444947495420534556454e),
  (45, 0x307830364638090938092320455854454e444544204152414249432d494e444943204449474954204549474854),
  (44, 0x307830364639090939092320455854454e444544204152414249432d494e444943204449474954204e494e45),
  (47, 0x30783036464109095368092320415241424943204c455454455220534845454e205749544820444f542042454c4f57),
  (44, 0x307830364642090944092320415241424943204c455454455220444144205749544820444f542042454c4f57),
  (47, 0x30783036464309094768092320415241424943204c455454455220474841494e205749544820444f542042454c4f57),
  (40, 0x307830364644090926092320415241424943205349474e2053494e44484920414d50455253414e44),
  (48, 0x30783036464509092b6d092320415241424943205349474e2053494e44484920504f5354504f534954494f4e204d454e),
  (0, 0x0),
  (1, 0x23),
  (29, 0x2320436861726163746572732030783037303020746f20307830374646),
  (1, 0x23),
  (0, 0x0),
  (36, 0x30783037303009092f2f09232053595249414320454e44204f4620504152414752415048),
  (40, 0x30783037303109092f0923205359524941432053555052414c494e4541522046554c4c2053544f50),
  (38, 0x30783037303209092c092320535952494143205355424c494e4541522046554c4c2053544f50),
  (36, 0x3078303730330909210923205359524941432053555052414c494e45415220434f4c4f4e),
  (34, 0x307830373034090921092320535952494143205355424c494e45415220434f4c4f4e),
  (35, 0x30783037303509092d09232053595249414320484f52495a4f4e54414c20434f4c4f4e),
  (36, 0x30783037303609092c09232053595249414320434f4c4f4e20534b45574544204c454654),
  (37, 0x30783037303709092c09232053595249414320434f4c4f4e20534b45574544205249474854),
  (48, 0x30783037303809093b0923205359524941432053555052414c494e45415220434f4c4f4e20534b45574544204c454654),
  (30, 0x30783037304109097e09232053595249414320434f4e5452414354494f4e),
  (34, 0x30783037304209097b092320535952494143204841524b4c45414e204f42454c5553),
  (37, 0x30783037304309097d092320535952494143204841524b4c45414e204d45544f42454c5553),
  (38, 0x30783037304409092a092320535952494143204841524b4c45414e2041535445524953435553),
  (0, 0x0),
  (33, 0x3078303731300909222722092320535952494143204c455454455220414c415048),
  (30, 0x307830373132090962092320535952494143204c45545445522042455448),
  (31, 0x307830373133090967092320535952494143204c45545445522047414d414c),
  (40, 0x307830373134090967092320535952494143204c45545445522047414d414c204741525348554e49),
  (32, 0x307830373135090964092320535952494143204c45545445522044414c415448),
  (45, 0x307830373136090964092320535952494143204c455454455220444f544c4553532044414c4154482052495348),
  (28, 0x307830373137090968092320535952494143204c4554544552204845),
  (29, 0x307830373138090977092320535952494143204c455454455220574157),
  (30, 0x30783037313909097a092320535952494143204c4554544552205a41494e),
  (30, 0x307830373141090948092320535952494143204c45545445522048455448),
  (30, 0x307830373142090974092320535952494143204c45545445522054455448),
  (39, 0x307830373143090974092320535952494143204c45545445522054455448204741525348554e49),
  (30, 0x307830373144090979092320535952494143204c45545445522059554448),
  (34, 0x30783037314509097968092320535952494143204c45545445522059554448204845),
  (30, 0x30783037314609096b092320535952494143204c4554544552204b415048),
  (0, 0x0),
  (32, 0x30783037323009096c092320535952494143204c4554544552204c414d414448),
  (29, 0x30783037323109096d092320535952494143204c4554544552204d494d),
  (29, 0x30783037323209096e092320535952494143204c4554544552204e554e),
  (33, 0x307830373233090973092320535952494143204c45545445522053454d4b415448),
  (39, 0x307830373234090973092320535952494143204c45545445522046494e414c2053454d4b415448),
  (27, 0x307830373235090960092320535952494143204c45545445522045),
  (28, 0x307830373236090970092320535952494143204c4554544552205045),
  (37, 0x307830373237090970092320535952494143204c4554544552205245564552534544205045),
  (31, 0x307830373238090953092320535952494143204c4554544552205341444845),
  (30, 0x307830373239090971092320535952494143204c45545445522051415048),
  (30, 0x307830373241090972092320535952494143204c45545445522052495348),
  (31, 0x30783037324209097368092320535952494143204c4554544552205348494e),
  (29, 0x307830373243090974092320535952494143204c455454455220544157),
  (0, 0x0),
  (31, 0x307830373330090961092320535952494143205054484148412041424f5645),
  (31, 0x307830373331090961092320535952494143205054484148412042454c4f57),
  (32, 0x3078303733320909610923205359524941432050544841484120444f54544544),
  (31, 0x307830373333090941092320535952494143205a51415048412041424f5645)]

/-- Lines 1519-1618 of table/legacy/unidecode.tbl. -/
def legacy_unidecode_17 : List (Nat × Nat) := [
  (31, 0x307830373334090941092320535952494143205a51415048412042454c4f57),
  (32, 0x307830373335090941092320535952494143205a514150484120444f54544544),
  (30, 0x3078303733360909650923205359524941432052424153412041424f5645),
  (30, 0x3078303733370909650923205359524941432052424153412042454c4f57),
  (42, 0x30783037333809096509232053595249414320444f54544544205a4c414d4120484f52495a4f4e54414c),
  (39, 0x30783037333909094509232053595249414320444f54544544205a4c414d4120414e47554c4152),
  (30, 0x3078303733410909690923205359524941432048424153412041424f5645),
  (30, 0x3078303733420909690923205359524941432048424153412042454c4f57),
  (37, 0x3078303733430909750923205359524941432048424153412d455341534120444f54544544),
  (30, 0x3078303733440909750923205359524941432045534153412041424f5645),
  (30, 0x3078303733450909750923205359524941432045534153412042454c4f57),
  (24, 0x30783037334609096f092320535952494143205257414841),
  (0, 0x0),
  (28, 0x30783037343109096009232053595249414320515553485348415941),
  (29, 0x30783037343209092227220923205359524941432052554b4b414b4841),
  (35, 0x30783037343509095809232053595249414320544852454520444f54532041424f5645),
  (35, 0x30783037343609095109232053595249414320544852454520444f54532042454c4f57),
  (37, 0x307830373437090940092320535952494143204f424c49515545204c494e452041424f5645),
  (37, 0x307830373438090940092320535952494143204f424c49515545204c494e452042454c4f57),
  (24, 0x30783037343909097c092320535952494143204d55534943),
  (26, 0x30783037344109092b0923205359524941432042415252454b48),
  (0, 0x0),
  (29, 0x307830373830090968092320544841414e41204c455454455220484141),
  (36, 0x30783037383109097368092320544841414e41204c455454455220534841564959414e49),
  (31, 0x30783037383209096e092320544841414e41204c4554544552204e4f4f4e55),
  (29, 0x307830373833090972092320544841414e41204c455454455220524141),
  (29, 0x307830373834090962092320544841414e41204c455454455220424141),
  (35, 0x30783037383509094c092320544841414e41204c4554544552204c4841564959414e49),
  (31, 0x30783037383609096b092320544841414e41204c4554544552204b41414655),
  (33, 0x3078303738370909222722092320544841414e41204c455454455220414c494655),
  (31, 0x307830373838090976092320544841414e41204c4554544552205641415655),
  (31, 0x30783037383909096d092320544841414e41204c4554544552204d45454d55),
  (31, 0x307830373841090966092320544841414e41204c4554544552204641414655),
  (33, 0x30783037384209096468092320544841414e41204c455454455220444841414c55),
  (31, 0x30783037384309097468092320544841414e41204c45545445522054484141),
  (31, 0x30783037384409096c092320544841414e41204c4554544552204c41414d55),
  (31, 0x307830373845090967092320544841414e41204c4554544552204741414655),
  (36, 0x30783037384609096e79092320544841414e41204c455454455220474e41564959414e49),
  (0, 0x0),
  (31, 0x307830373930090973092320544841414e41204c4554544552205345454e55),
  (34, 0x307830373931090964092320544841414e41204c4554544552204441564959414e49),
  (34, 0x30783037393209097a092320544841414e41204c4554544552205a41564959414e49),
  (34, 0x307830373933090974092320544841414e41204c4554544552205441564959414e49),
  (29, 0x307830373934090979092320544841414e41204c455454455220594141),
  (34, 0x307830373935090970092320544841414e41204c4554544552205041564959414e49),
  (34, 0x30783037393609096a092320544841414e41204c4554544552204a41564959414e49),
  (36, 0x30783037393709096368092320544841414e41204c455454455220434841564959414e49),
  (31, 0x30783037393809097474092320544841414e41204c45545445522054544141),
  (31, 0x30783037393909096868092320544841414e41204c45545445522048484141),
  (31, 0x30783037394109096b68092320544841414e41204c4554544552204b484141),
  (33, 0x30783037394209097468092320544841414e41204c455454455220544841414c55),
  (29, 0x30783037394309097a092320544841414e41204c4554544552205a4141),
  (33, 0x30783037394409097368092320544841414e41204c455454455220534845454e55),
  (32, 0x307830373945090973092320544841414e41204c455454455220534141444855),
  (32, 0x307830373946090964092320544841414e41204c455454455220444141444855),
  (0, 0x0),
  (28, 0x307830374130090974092320544841414e41204c455454455220544f),
  (28, 0x30783037413109097a092320544841414e41204c4554544552205a4f),
  (30, 0x307830374132090960092320544841414e41204c45545445522041494e55),
  (33, 0x30783037413309096768092320544841414e41204c455454455220474841494e55),
  (31, 0x307830374134090971092320544841414e41204c4554544552205141414655),
  (31, 0x307830374135090977092320544841414e41204c4554544552205741415655),
  (26, 0x307830374136090961092320544841414e412041424146494c49),
  (29, 0x30783037413709096161092320544841414e4120414142414146494c49),
  (26, 0x307830374138090969092320544841414e412049424946494c49),
  (29, 0x30783037413909096565092320544841414e4120454542454546494c49),
  (26, 0x307830374141090975092320544841414e412055425546494c49),
  (29, 0x30783037414209096f6f092320544841414e41204f4f424f4f46494c49),
  (26, 0x307830374143090965092320544841414e412045424546494c49),
  (29, 0x30783037414409096579092320544841414e4120455942455946494c49),
  (26, 0x30783037414509096f092320544841414e41204f424f46494c49),
  (29, 0x30783037414609096f61092320544841414e41204f41424f4146494c49),
  (0, 0x0),
  (1, 0x23),
  (29, 0x2320436861726163746572732030783038303020746f20307830384646),
  (1, 0x23),
  (0, 0x0),
  (1, 0x23),
  (29, 0x2320436861726163746572732030783039303020746f20307830394646),
  (1, 0x23),
  (0, 0x0),
  (39, 0x30783039303109094e092320444556414e4147415249205349474e2043414e44524142494e4455),
  (36, 0x30783039303209094e092320444556414e4147415249205349474e20414e555356415241),
  (35, 0x307830393033090948092320444556414e4147415249205349474e2056495341524741),
  (31, 0x307830393035090961092320444556414e4147415249204c45545445522041),
  (33, 0x30783039303609096161092320444556414e4147415249204c4554544552204141),
  (31, 0x307830393037090969092320444556414e4147415249204c45545445522049),
  (33, 0x30783039303809096969092320444556414e4147415249204c4554544552204949),
  (31, 0x307830393039090975092320444556414e4147415249204c45545445522055),
  (33, 0x30783039304109097575092320444556414e4147415249204c4554544552205555),
  (39, 0x307830393042090952092320444556414e4147415249204c455454455220564f43414c49432052),
  (39, 0x30783039304309094c092320444556414e4147415249204c455454455220564f43414c4943204c),
  (39, 0x3078303930440909654e092320444556414e4147415249204c45545445522043414e4452412045),
  (37, 0x307830393045090965092320444556414e4147415249204c45545445522053484f52542045),
  (31, 0x307830393046090965092320444556414e4147415249204c45545445522045),
  (0, 0x0),
  (33, 0x30783039313009096169092320444556414e4147415249204c4554544552204149),
  (39, 0x30783039313109096f4e092320444556414e4147415249204c45545445522043414e445241204f),
  (37, 0x30783039313209096f092320444556414e4147415249204c45545445522053484f5254204f),
  (31, 0x30783039313309096f092320444556414e4147415249204c4554544552204f)]

/-- Lines 1619-1718 of table/legacy/unidecode.tbl. -/
def legacy_unidecode_18 : List (Nat × Nat) := [
  (33, 0x30783039313409096175092320444556414e4147415249204c4554544552204155),
  (32, 0x30783039313509096b092320444556414e4147415249204c4554544552204b41),
  (34, 0x30783039313609096b68092320444556414e4147415249204c4554544552204b4841),
  (32, 0x307830393137090967092320444556414e4147415249204c4554544552204741),
  (34, 0x30783039313809096768092320444556414e4147415249204c455454455220474841),
  (34, 0x30783039313909096e67092320444556414e4147415249204c4554544552204e4741),
  (32, 0x307830393141090963092320444556414e4147415249204c4554544552204341),
  (34, 0x30783039314209096368092320444556414e4147415249204c455454455220434841),
  (32, 0x30783039314309096a092320444556414e4147415249204c4554544552204a41),
  (34, 0x30783039314409096a68092320444556414e4147415249204c4554544552204a4841),
  (34, 0x30783039314509096e79092320444556414e4147415249204c4554544552204e5941),
  (34, 0x30783039314609097474092320444556414e4147415249204c455454455220545441),
  (0, 0x0),
  (36, 0x3078303932300909747468092320444556414e4147415249204c45545445522054544841),
  (34, 0x30783039323109096464092320444556414e4147415249204c455454455220444441),
  (36, 0x3078303932320909646468092320444556414e4147415249204c45545445522044444841),
  (34, 0x30783039323309096e6e092320444556414e4147415249204c4554544552204e4e41),
  (32, 0x307830393234090974092320444556414e4147415249204c4554544552205441),
  (34, 0x30783039323509097468092320444556414e4147415249204c455454455220544841),
  (32, 0x307830393236090964092320444556414e4147415249204c4554544552204441),
  (34, 0x30783039323709096468092320444556414e4147415249204c455454455220444841),
  (32, 0x30783039323809096e092320444556414e4147415249204c4554544552204e41),
  (36, 0x30783039323909096e6e6e092320444556414e4147415249204c4554544552204e4e4e41),
  (32, 0x307830393241090970092320444556414e4147415249204c4554544552205041),
  (34, 0x30783039324209097068092320444556414e4147415249204c455454455220504841),
  (32, 0x307830393243090962092320444556414e4147415249204c4554544552204241),
  (34, 0x30783039324409096268092320444556414e4147415249204c455454455220424841),
  (32, 0x30783039324509096d092320444556414e4147415249204c4554544552204d41),
  (32, 0x307830393246090979092320444556414e4147415249204c4554544552205941),
  (0, 0x0),
  (32, 0x307830393330090972092320444556414e4147415249204c4554544552205241),
  (34, 0x30783039333109097272092320444556414e4147415249204c455454455220525241),
  (32, 0x30783039333209096c092320444556414e4147415249204c4554544552204c41),
  (33, 0x30783039333309096c092320444556414e4147415249204c4554544552204c4c41),
  (36, 0x30783039333409096c6c6c092320444556414e4147415249204c4554544552204c4c4c41),
  (32, 0x307830393335090976092320444556414e4147415249204c4554544552205641),
  (34, 0x30783039333609097368092320444556414e4147415249204c455454455220534841),
  (34, 0x30783039333709097373092320444556414e4147415249204c455454455220535341),
  (32, 0x307830393338090973092320444556414e4147415249204c4554544552205341),
  (32, 0x307830393339090968092320444556414e4147415249204c4554544552204841),
  (35, 0x3078303933430909222722092320444556414e4147415249205349474e204e554b5441),
  (38, 0x3078303933440909222722092320444556414e4147415249205349474e204156414752414841),
  (37, 0x30783039334509096161092320444556414e414741524920564f57454c205349474e204141),
  (35, 0x307830393346090969092320444556414e414741524920564f57454c205349474e2049),
  (0, 0x0),
  (37, 0x30783039343009096969092320444556414e414741524920564f57454c205349474e204949),
  (35, 0x307830393431090975092320444556414e414741524920564f57454c205349474e2055),
  (37, 0x30783039343209097575092320444556414e414741524920564f57454c205349474e205555),
  (43, 0x307830393433090952092320444556414e414741524920564f57454c205349474e20564f43414c49432052),
  (45, 0x30783039343409095252092320444556414e414741524920564f57454c205349474e20564f43414c4943205252),
  (43, 0x3078303934350909654e092320444556414e414741524920564f57454c205349474e2043414e4452412045),
  (41, 0x307830393436090965092320444556414e414741524920564f57454c205349474e2053484f52542045),
  (35, 0x307830393437090965092320444556414e414741524920564f57454c205349474e2045),
  (37, 0x30783039343809096169092320444556414e414741524920564f57454c205349474e204149),
  (43, 0x30783039343909096f4e092320444556414e414741524920564f57454c205349474e2043414e445241204f),
  (41, 0x30783039344109096f092320444556414e414741524920564f57454c205349474e2053484f5254204f),
  (35, 0x30783039344209096f092320444556414e414741524920564f57454c205349474e204f),
  (37, 0x30783039344309096175092320444556414e414741524920564f57454c205349474e204155),
  (0, 0x0),
  (27, 0x307830393530090941554d092320444556414e4147415249204f4d),
  (43, 0x3078303935310909222722092320444556414e414741524920535452455353205349474e20554441545441),
  (45, 0x3078303935320909222722092320444556414e414741524920535452455353205349474e20414e554441545441),
  (35, 0x307830393533090960092320444556414e414741524920475241564520414343454e54),
  (37, 0x3078303935340909222722092320444556414e414741524920414355544520414343454e54),
  (32, 0x307830393538090971092320444556414e4147415249204c4554544552205141),
  (36, 0x30783039353909096b6868092320444556414e4147415249204c4554544552204b484841),
  (36, 0x3078303935410909676868092320444556414e4147415249204c45545445522047484841),
  (32, 0x30783039354209097a092320444556414e4147415249204c4554544552205a41),
  (38, 0x307830393543090964646468092320444556414e4147415249204c4554544552204444444841),
  (34, 0x30783039354409097268092320444556414e4147415249204c455454455220524841),
  (32, 0x307830393545090966092320444556414e4147415249204c4554544552204641),
  (34, 0x30783039354609097979092320444556414e4147415249204c455454455220595941),
  (0, 0x0),
  (41, 0x30783039363009095252092320444556414e4147415249204c455454455220564f43414c4943205252),
  (41, 0x30783039363109094c4c092320444556414e4147415249204c455454455220564f43414c4943204c4c),
  (43, 0x30783039363209094c092320444556414e414741524920564f57454c205349474e20564f43414c4943204c),
  (45, 0x30783039363309094c4c092320444556414e414741524920564f57454c205349474e20564f43414c4943204c4c),
  (30, 0x3078303936340909202f20092320444556414e41474152492044414e4441),
  (38, 0x3078303936350909202f2f20092320444556414e414741524920444f55424c452044414e4441),
  (33, 0x307830393636090930092320444556414e4147415249204449474954205a45524f),
  (32, 0x307830393637090931092320444556414e4147415249204449474954204f4e45),
  (32, 0x307830393638090932092320444556414e41474152492044494749542054574f),
  (34, 0x307830393639090933092320444556414e4147415249204449474954205448524545),
  (33, 0x307830393641090934092320444556414e414741524920444947495420464f5552),
  (33, 0x307830393642090935092320444556414e41474152492044494749542046495645),
  (32, 0x307830393643090936092320444556414e414741524920444947495420534958),
  (34, 0x307830393644090937092320444556414e414741524920444947495420534556454e),
  (34, 0x307830393645090938092320444556414e4147415249204449474954204549474854),
  (33, 0x307830393646090939092320444556414e4147415249204449474954204e494e45),
  (0, 0x0),
  (40, 0x30783039373009092e092320444556414e414741524920414242524556494154494f4e205349474e),
  (36, 0x30783039383109094e09232042454e47414c49205349474e2043414e44524142494e4455),
  (33, 0x30783039383209094e09232042454e47414c49205349474e20414e555356415241),
  (32, 0x30783039383309094809232042454e47414c49205349474e2056495341524741),
  (28, 0x30783039383509096109232042454e47414c49204c45545445522041),
  (30, 0x3078303938360909616109232042454e47414c49204c4554544552204141),
  (28, 0x30783039383709096909232042454e47414c49204c45545445522049),
  (30, 0x3078303938380909696909232042454e47414c49204c4554544552204949),
  (28, 0x30783039383909097509232042454e47414c49204c45545445522055),
  (30, 0x3078303938410909757509232042454e47414c49204c4554544552205555)]

/-- Lines 1719-1818 of table/legacy/unidecode.tbl. -/
def legacy_unidecode_19 : List (Nat × Nat) := [
  (36, 0x30783039384209095209232042454e47414c49204c455454455220564f43414c49432052),
  (37, 0x3078303938430909525209232042454e47414c49204c455454455220564f43414c4943204c),
  (28, 0x30783039384609096509232042454e47414c49204c45545445522045),
  (0, 0x0),
  (30, 0x3078303939300909616909232042454e47414c49204c4554544552204149),
  (28, 0x30783039393309096f09232042454e47414c49204c4554544552204f),
  (30, 0x3078303939340909617509232042454e47414c49204c4554544552204155),
  (29, 0x30783039393509096b09232042454e47414c49204c4554544552204b41),
  (31, 0x30783039393609096b6809232042454e47414c49204c4554544552204b4841),
  (29, 0x30783039393709096709232042454e47414c49204c4554544552204741),
  (31, 0x3078303939380909676809232042454e47414c49204c455454455220474841),
  (31, 0x30783039393909096e6709232042454e47414c49204c4554544552204e4741),
  (29, 0x30783039394109096309232042454e47414c49204c4554544552204341),
  (31, 0x3078303939420909636809232042454e47414c49204c455454455220434841),
  (29, 0x30783039394309096a09232042454e47414c49204c4554544552204a41),
  (31, 0x30783039394409096a6809232042454e47414c49204c4554544552204a4841),
  (31, 0x30783039394509096e7909232042454e47414c49204c4554544552204e5941),
  (31, 0x3078303939460909747409232042454e47414c49204c455454455220545441),
  (0, 0x0),
  (33, 0x307830394130090974746809232042454e47414c49204c45545445522054544841),
  (31, 0x3078303941310909646409232042454e47414c49204c455454455220444441),
  (33, 0x307830394132090964646809232042454e47414c49204c45545445522044444841),
  (31, 0x30783039413309096e6e09232042454e47414c49204c4554544552204e4e41),
  (29, 0x30783039413409097409232042454e47414c49204c4554544552205441),
  (31, 0x3078303941350909746809232042454e47414c49204c455454455220544841),
  (29, 0x30783039413609096409232042454e47414c49204c4554544552204441),
  (31, 0x3078303941370909646809232042454e47414c49204c455454455220444841),
  (29, 0x30783039413809096e09232042454e47414c49204c4554544552204e41),
  (29, 0x30783039414109097009232042454e47414c49204c4554544552205041),
  (31, 0x3078303941420909706809232042454e47414c49204c455454455220504841),
  (29, 0x30783039414309096209232042454e47414c49204c4554544552204241),
  (31, 0x3078303941440909626809232042454e47414c49204c455454455220424841),
  (29, 0x30783039414509096d09232042454e47414c49204c4554544552204d41),
  (29, 0x30783039414609097909232042454e47414c49204c4554544552205941),
  (0, 0x0),
  (29, 0x30783039423009097209232042454e47414c49204c4554544552205241),
  (29, 0x30783039423209096c09232042454e47414c49204c4554544552204c41),
  (31, 0x3078303942360909736809232042454e47414c49204c455454455220534841),
  (31, 0x3078303942370909737309232042454e47414c49204c455454455220535341),
  (29, 0x30783039423809097309232042454e47414c49204c4554544552205341),
  (29, 0x30783039423909096809232042454e47414c49204c4554544552204841),
  (32, 0x307830394243090922272209232042454e47414c49205349474e204e554b5441),
  (34, 0x3078303942450909616109232042454e47414c4920564f57454c205349474e204141),
  (32, 0x30783039424609096909232042454e47414c4920564f57454c205349474e2049),
  (0, 0x0),
  (34, 0x3078303943300909696909232042454e47414c4920564f57454c205349474e204949),
  (32, 0x30783039433109097509232042454e47414c4920564f57454c205349474e2055),
  (34, 0x3078303943320909757509232042454e47414c4920564f57454c205349474e205555),
  (40, 0x30783039433309095209232042454e47414c4920564f57454c205349474e20564f43414c49432052),
  (42, 0x3078303943340909525209232042454e47414c4920564f57454c205349474e20564f43414c4943205252),
  (32, 0x30783039433709096509232042454e47414c4920564f57454c205349474e2045),
  (34, 0x3078303943380909616909232042454e47414c4920564f57454c205349474e204149),
  (32, 0x30783039434209096f09232042454e47414c4920564f57454c205349474e204f),
  (34, 0x3078303943430909617509232042454e47414c4920564f57454c205349474e204155),
  (34, 0x30783039443709092b09232042454e47414c49204155204c454e475448204d41524b),
  (31, 0x3078303944430909727209232042454e47414c49204c455454455220525241),
  (31, 0x3078303944440909726809232042454e47414c49204c455454455220524841),
  (31, 0x3078303944460909797909232042454e47414c49204c455454455220595941),
  (0, 0x0),
  (38, 0x3078303945300909525209232042454e47414c49204c455454455220564f43414c4943205252),
  (38, 0x30783039453109094c4c09232042454e47414c49204c455454455220564f43414c4943204c4c),
  (40, 0x30783039453209094c09232042454e47414c4920564f57454c205349474e20564f43414c4943204c),
  (42, 0x30783039453309094c4c09232042454e47414c4920564f57454c205349474e20564f43414c4943204c4c),
  (30, 0x30783039453609093009232042454e47414c49204449474954205a45524f),
  (29, 0x30783039453709093109232042454e47414c49204449474954204f4e45),
  (29, 0x30783039453809093209232042454e47414c492044494749542054574f),
  (31, 0x30783039453909093309232042454e47414c49204449474954205448524545),
  (30, 0x30783039454109093409232042454e47414c4920444947495420464f5552),
  (30, 0x30783039454209093509232042454e47414c492044494749542046495645),
  (29, 0x30783039454309093609232042454e47414c4920444947495420534958),
  (31, 0x30783039454409093709232042454e47414c4920444947495420534556454e),
  (31, 0x30783039454509093809232042454e47414c49204449474954204549474854),
  (30, 0x30783039454609093909232042454e47414c49204449474954204e494e45),
  (0, 0x0),
  (53, 0x30783039463009092272272209232042454e47414c49204c45545445522052412057495448204d4944444c4520444941474f4e414c),
  (50, 0x3078303946310909726009232042454e47414c49204c45545445522052412057495448204c4f57455220444941474f4e414c),
  (31, 0x3078303946320909527309232042454e47414c49205255504545204d41524b),
  (31, 0x3078303946330909527309232042454e47414c49205255504545205349474e),
  (43, 0x3078303946340909312f09232042454e47414c492043555252454e4359204e554d455241544f52204f4e45),
  (43, 0x3078303946350909322f09232042454e47414c492043555252454e4359204e554d455241544f522054574f),
  (45, 0x3078303946360909332f09232042454e47414c492043555252454e4359204e554d455241544f52205448524545),
  (44, 0x3078303946370909342f09232042454e47414c492043555252454e4359204e554d455241544f5220464f5552),
  (74, 0x30783039463809092031202d20312f09232042454e47414c492043555252454e4359204e554d455241544f52204f4e45204c455353205448414e205448452044454e4f4d494e41544f52),
  (50, 0x30783039463909092f313609232042454e47414c492043555252454e43592044454e4f4d494e41544f52205349585445454e),
  (31, 0x30783041303209094e0923204755524d554b4849205349474e2042494e4449),
  (29, 0x3078304130350909610923204755524d554b4849204c45545445522041),
  (31, 0x307830413036090961610923204755524d554b4849204c4554544552204141),
  (29, 0x3078304130370909690923204755524d554b4849204c45545445522049),
  (31, 0x307830413038090969690923204755524d554b4849204c4554544552204949),
  (29, 0x3078304130390909750923204755524d554b4849204c45545445522055),
  (31, 0x307830413041090975750923204755524d554b4849204c4554544552205555),
  (31, 0x307830413046090965650923204755524d554b4849204c4554544552204545),
  (0, 0x0),
  (31, 0x307830413130090961690923204755524d554b4849204c4554544552204149),
  (31, 0x30783041313309096f6f0923204755524d554b4849204c4554544552204f4f),
  (31, 0x307830413134090961750923204755524d554b4849204c4554544552204155),
  (30, 0x30783041313509096b0923204755524d554b4849204c4554544552204b41),
  (32, 0x30783041313609096b680923204755524d554b4849204c4554544552204b4841),
  (30, 0x3078304131370909670923204755524d554b4849204c4554544552204741),
  (32, 0x307830413138090967680923204755524d554b4849204c455454455220474841)]

/-- Lines 1819-1918 of table/legacy/unidecode.tbl. -/
def legacy_unidecode_20 : List (Nat × Nat) := [
  (32, 0x30783041313909096e670923204755524d554b4849204c4554544552204e4741),
  (30, 0x3078304131410909630923204755524d554b4849204c4554544552204341),
  (32, 0x307830413142090963680923204755524d554b4849204c455454455220434841),
  (30, 0x30783041314309096a0923204755524d554b4849204c4554544552204a41),
  (32, 0x30783041314409096a680923204755524d554b4849204c4554544552204a4841),
  (32, 0x30783041314509096e790923204755524d554b4849204c4554544552204e5941),
  (32, 0x307830413146090974740923204755524d554b4849204c455454455220545441),
  (0, 0x0),
  (34, 0x30783041323009097474680923204755524d554b4849204c45545445522054544841),
  (32, 0x307830413231090964640923204755524d554b4849204c455454455220444441),
  (34, 0x30783041323209096464680923204755524d554b4849204c45545445522044444841),
  (32, 0x30783041323309096e6e0923204755524d554b4849204c4554544552204e4e41),
  (30, 0x3078304132340909740923204755524d554b4849204c4554544552205441),
  (32, 0x307830413235090974680923204755524d554b4849204c455454455220544841),
  (30, 0x3078304132360909640923204755524d554b4849204c4554544552204441),
  (32, 0x307830413237090964680923204755524d554b4849204c455454455220444841),
  (30, 0x30783041323809096e0923204755524d554b4849204c4554544552204e41),
  (30, 0x3078304132410909700923204755524d554b4849204c4554544552205041),
  (32, 0x307830413242090970680923204755524d554b4849204c455454455220504841),
  (30, 0x3078304132430909620923204755524d554b4849204c4554544552204241),
  (32, 0x307830413244090962620923204755524d554b4849204c455454455220424841),
  (30, 0x30783041324509096d0923204755524d554b4849204c4554544552204d41),
  (30, 0x3078304132460909790923204755524d554b4849204c4554544552205941),
  (0, 0x0),
  (30, 0x3078304133300909720923204755524d554b4849204c4554544552205241),
  (30, 0x30783041333209096c0923204755524d554b4849204c4554544552204c41),
  (32, 0x30783041333309096c6c0923204755524d554b4849204c4554544552204c4c41),
  (30, 0x3078304133350909760923204755524d554b4849204c4554544552205641),
  (32, 0x307830413336090973680923204755524d554b4849204c455454455220534841),
  (30, 0x3078304133380909730923204755524d554b4849204c4554544552205341),
  (30, 0x3078304133390909680923204755524d554b4849204c4554544552204841),
  (33, 0x30783041334309092227220923204755524d554b4849205349474e204e554b5441),
  (35, 0x307830413345090961610923204755524d554b484920564f57454c205349474e204141),
  (33, 0x3078304133460909690923204755524d554b484920564f57454c205349474e2049),
  (0, 0x0),
  (35, 0x307830413430090969690923204755524d554b484920564f57454c205349474e204949),
  (33, 0x3078304134310909750923204755524d554b484920564f57454c205349474e2055),
  (35, 0x307830413432090975750923204755524d554b484920564f57454c205349474e205555),
  (35, 0x307830413437090965650923204755524d554b484920564f57454c205349474e204545),
  (35, 0x307830413438090961690923204755524d554b484920564f57454c205349474e204149),
  (35, 0x30783041344209096f6f0923204755524d554b484920564f57454c205349474e204f4f),
  (35, 0x307830413443090961750923204755524d554b484920564f57454c205349474e204155),
  (34, 0x30783041353909096b68680923204755524d554b4849204c4554544552204b484841),
  (34, 0x30783041354109096768680923204755524d554b4849204c45545445522047484841),
  (30, 0x30783041354209097a0923204755524d554b4849204c4554544552205a41),
  (32, 0x307830413543090972720923204755524d554b4849204c455454455220525241),
  (30, 0x3078304135450909660923204755524d554b4849204c4554544552204641),
  (31, 0x3078304136360909300923204755524d554b4849204449474954205a45524f),
  (30, 0x3078304136370909310923204755524d554b4849204449474954204f4e45),
  (30, 0x3078304136380909320923204755524d554b48492044494749542054574f),
  (32, 0x3078304136390909330923204755524d554b4849204449474954205448524545),
  (31, 0x3078304136410909340923204755524d554b484920444947495420464f5552),
  (31, 0x3078304136420909350923204755524d554b48492044494749542046495645),
  (30, 0x3078304136430909360923204755524d554b484920444947495420534958),
  (32, 0x3078304136440909370923204755524d554b484920444947495420534556454e),
  (32, 0x3078304136450909380923204755524d554b4849204449474954204549474854),
  (31, 0x3078304136460909390923204755524d554b4849204449474954204e494e45),
  (0, 0x0),
  (26, 0x30783041373009094e0923204755524d554b4849205449505049),
  (26, 0x3078304137310909480923204755524d554b484920414444414b),
  (34, 0x3078304137340909472e452e4f2e0923204755524d554b484920454b204f4e4b4152),
  (37, 0x30783041383109094e09232047554a4152415449205349474e2043414e44524142494e4455),
  (34, 0x30783041383209094e09232047554a4152415449205349474e20414e555356415241),
  (33, 0x30783041383309094809232047554a4152415449205349474e2056495341524741),
  (29, 0x30783041383509096109232047554a4152415449204c45545445522041),
  (31, 0x3078304138360909616109232047554a4152415449204c4554544552204141),
  (29, 0x30783041383709096909232047554a4152415449204c45545445522049),
  (31, 0x3078304138380909696909232047554a4152415449204c4554544552204949),
  (29, 0x30783041383909097509232047554a4152415449204c45545445522055),
  (31, 0x3078304138410909757509232047554a4152415449204c4554544552205555),
  (37, 0x30783041384209095209232047554a4152415449204c455454455220564f43414c49432052),
  (36, 0x3078304138440909654e09232047554a415241544920564f57454c2043414e4452412045),
  (29, 0x30783041384609096509232047554a4152415449204c45545445522045),
  (0, 0x0),
  (31, 0x3078304139300909616909232047554a4152415449204c4554544552204149),
  (36, 0x30783041393109096f4e09232047554a415241544920564f57454c2043414e445241204f),
  (29, 0x30783041393309096f09232047554a4152415449204c4554544552204f),
  (31, 0x3078304139340909617509232047554a4152415449204c4554544552204155),
  (30, 0x30783041393509096b09232047554a4152415449204c4554544552204b41),
  (32, 0x30783041393609096b6809232047554a4152415449204c4554544552204b4841),
  (30, 0x30783041393709096709232047554a4152415449204c4554544552204741),
  (32, 0x3078304139380909676809232047554a4152415449204c455454455220474841),
  (32, 0x30783041393909096e6709232047554a4152415449204c4554544552204e4741),
  (30, 0x30783041394109096309232047554a4152415449204c4554544552204341),
  (32, 0x3078304139420909636809232047554a4152415449204c455454455220434841),
  (30, 0x30783041394309096a09232047554a4152415449204c4554544552204a41),
  (32, 0x30783041394409096a6809232047554a4152415449204c4554544552204a4841),
  (32, 0x30783041394509096e7909232047554a4152415449204c4554544552204e5941),
  (32, 0x3078304139460909747409232047554a4152415449204c455454455220545441),
  (0, 0x0),
  (34, 0x307830414130090974746809232047554a4152415449204c45545445522054544841),
  (32, 0x3078304141310909646409232047554a4152415449204c455454455220444441),
  (34, 0x307830414132090964646809232047554a4152415449204c45545445522044444841),
  (32, 0x30783041413309096e6e09232047554a4152415449204c4554544552204e4e41),
  (30, 0x30783041413409097409232047554a4152415449204c4554544552205441),
  (32, 0x3078304141350909746809232047554a4152415449204c455454455220544841),
  (30, 0x30783041413609096409232047554a4152415449204c4554544552204441),
  (32, 0x3078304141370909646809232047554a4152415449204c455454455220444841),
  (30, 0x30783041413809096e09232047554a4152415449204c4554544552204e41),
  (30, 0x30783041414109097009232047554a4152415449204c4554544552205041)]

/-- Lines 1919-2018 of table/legacy/unidecode.tbl. -/
def legacy_unidecode_21 : List (Nat × Nat) := [
  (32, 0x3078304141420909706809232047554a4152415449204c455454455220504841),
  (30, 0x30783041414309096209232047554a4152415449204c4554544552204241),
  (32, 0x3078304141440909626809232047554a4152415449204c455454455220424841),
  (30, 0x30783041414509096d09232047554a4152415449204c4554544552204d41),
  (31, 0x3078304141460909796109232047554a4152415449204c4554544552205941),
  (0, 0x0),
  (30, 0x30783041423009097209232047554a4152415449204c4554544552205241),
  (30, 0x30783041423209096c09232047554a4152415449204c4554544552204c41),
  (32, 0x30783041423309096c6c09232047554a4152415449204c4554544552204c4c41),
  (30, 0x30783041423509097609232047554a4152415449204c4554544552205641),
  (32, 0x3078304142360909736809232047554a4152415449204c455454455220534841),
  (32, 0x3078304142370909737309232047554a4152415449204c455454455220535341),
  (30, 0x30783041423809097309232047554a4152415449204c4554544552205341),
  (30, 0x30783041423909096809232047554a4152415449204c4554544552204841),
  (33, 0x307830414243090922272209232047554a4152415449205349474e204e554b5441),
  (36, 0x307830414244090922272209232047554a4152415449205349474e204156414752414841),
  (35, 0x3078304142450909616109232047554a415241544920564f57454c205349474e204141),
  (33, 0x30783041424609096909232047554a415241544920564f57454c205349474e2049),
  (0, 0x0),
  (35, 0x3078304143300909696909232047554a415241544920564f57454c205349474e204949),
  (33, 0x30783041433109097509232047554a415241544920564f57454c205349474e2055),
  (35, 0x3078304143320909757509232047554a415241544920564f57454c205349474e205555),
  (41, 0x30783041433309095209232047554a415241544920564f57454c205349474e20564f43414c49432052),
  (43, 0x3078304143340909525209232047554a415241544920564f57454c205349474e20564f43414c4943205252),
  (41, 0x3078304143350909654e09232047554a415241544920564f57454c205349474e2043414e4452412045),
  (33, 0x30783041433709096509232047554a415241544920564f57454c205349474e2045),
  (35, 0x3078304143380909616909232047554a415241544920564f57454c205349474e204149),
  (41, 0x30783041433909096f4e09232047554a415241544920564f57454c205349474e2043414e445241204f),
  (33, 0x30783041434209096f09232047554a415241544920564f57454c205349474e204f),
  (35, 0x3078304143430909617509232047554a415241544920564f57454c205349474e204155),
  (0, 0x0),
  (25, 0x307830414430090941554d09232047554a4152415449204f4d),
  (0, 0x0),
  (39, 0x3078304145300909525209232047554a4152415449204c455454455220564f43414c4943205252),
  (31, 0x30783041453609093009232047554a4152415449204449474954205a45524f),
  (30, 0x30783041453709093109232047554a4152415449204449474954204f4e45),
  (30, 0x30783041453809093209232047554a41524154492044494749542054574f),
  (32, 0x30783041453909093309232047554a4152415449204449474954205448524545),
  (31, 0x30783041454109093409232047554a415241544920444947495420464f5552),
  (31, 0x30783041454209093509232047554a41524154492044494749542046495645),
  (30, 0x30783041454309093609232047554a415241544920444947495420534958),
  (32, 0x30783041454409093709232047554a415241544920444947495420534556454e),
  (32, 0x30783041454509093809232047554a4152415449204449474954204549474854),
  (31, 0x30783041454609093909232047554a4152415449204449474954204e494e45),
  (34, 0x30783042303109094e0923204f52495941205349474e2043414e44524142494e4455),
  (31, 0x30783042303209094e0923204f52495941205349474e20414e555356415241),
  (30, 0x3078304230330909480923204f52495941205349474e2056495341524741),
  (26, 0x3078304230350909610923204f52495941204c45545445522041),
  (28, 0x307830423036090961610923204f52495941204c4554544552204141),
  (26, 0x3078304230370909690923204f52495941204c45545445522049),
  (28, 0x307830423038090969690923204f52495941204c4554544552204949),
  (26, 0x3078304230390909750923204f52495941204c45545445522055),
  (28, 0x307830423041090975750923204f52495941204c4554544552205555),
  (34, 0x3078304230420909520923204f52495941204c455454455220564f43414c49432052),
  (34, 0x30783042304309094c0923204f52495941204c455454455220564f43414c4943204c),
  (26, 0x3078304230460909650923204f52495941204c45545445522045),
  (0, 0x0),
  (28, 0x307830423130090961690923204f52495941204c4554544552204149),
  (26, 0x30783042313309096f0923204f52495941204c4554544552204f),
  (28, 0x307830423134090961750923204f52495941204c4554544552204155),
  (27, 0x30783042313509096b0923204f52495941204c4554544552204b41),
  (29, 0x30783042313609096b680923204f52495941204c4554544552204b4841),
  (27, 0x3078304231370909670923204f52495941204c4554544552204741),
  (29, 0x307830423138090967680923204f52495941204c455454455220474841),
  (29, 0x30783042313909096e670923204f52495941204c4554544552204e4741),
  (27, 0x3078304231410909630923204f52495941204c4554544552204341),
  (29, 0x307830423142090963680923204f52495941204c455454455220434841),
  (27, 0x30783042314309096a0923204f52495941204c4554544552204a41),
  (29, 0x30783042314409096a680923204f52495941204c4554544552204a4841),
  (29, 0x30783042314509096e790923204f52495941204c4554544552204e5941),
  (29, 0x307830423146090974740923204f52495941204c455454455220545441),
  (0, 0x0),
  (31, 0x30783042323009097474680923204f52495941204c45545445522054544841),
  (29, 0x307830423231090964640923204f52495941204c455454455220444441),
  (31, 0x30783042323209096464680923204f52495941204c45545445522044444841),
  (29, 0x30783042323309096e6e0923204f52495941204c4554544552204e4e41),
  (27, 0x3078304232340909740923204f52495941204c4554544552205441),
  (29, 0x307830423235090974680923204f52495941204c455454455220544841),
  (27, 0x3078304232360909640923204f52495941204c4554544552204441),
  (29, 0x307830423237090964680923204f52495941204c455454455220444841),
  (27, 0x30783042323809096e0923204f52495941204c4554544552204e41),
  (27, 0x3078304232410909700923204f52495941204c4554544552205041),
  (29, 0x307830423242090970680923204f52495941204c455454455220504841),
  (27, 0x3078304232430909620923204f52495941204c4554544552204241),
  (29, 0x307830423244090962680923204f52495941204c455454455220424841),
  (27, 0x30783042324509096d0923204f52495941204c4554544552204d41),
  (27, 0x3078304232460909790923204f52495941204c4554544552205941),
  (0, 0x0),
  (27, 0x3078304233300909720923204f52495941204c4554544552205241),
  (27, 0x30783042333209096c0923204f52495941204c4554544552204c41),
  (29, 0x30783042333309096c6c0923204f52495941204c4554544552204c4c41),
  (29, 0x307830423336090973680923204f52495941204c455454455220534841),
  (29, 0x307830423337090973730923204f52495941204c455454455220535341),
  (27, 0x3078304233380909730923204f52495941204c4554544552205341),
  (27, 0x3078304233390909680923204f52495941204c4554544552204841),
  (30, 0x30783042334309092227220923204f52495941205349474e204e554b5441),
  (33, 0x30783042334409092227220923204f52495941205349474e204156414752414841),
  (32, 0x307830423345090961610923204f5249594120564f57454c205349474e204141),
  (30, 0x3078304233460909690923204f5249594120564f57454c205349474e2049),
  (0, 0x0)]

/-- Lines 2019-2118 of table/legacy/unidecode.tbl. -/
def legacy_unidecode_22 : List (Nat × Nat) := [
  (32, 0x307830423430090969690923204f5249594120564f57454c205349474e204949),
  (30, 0x3078304234310909750923204f5249594120564f57454c205349474e2055),
  (32, 0x307830423432090975750923204f5249594120564f57454c205349474e205555),
  (38, 0x3078304234330909520923204f5249594120564f57454c205349474e20564f43414c49432052),
  (30, 0x3078304234370909650923204f5249594120564f57454c205349474e2045),
  (32, 0x307830423438090961690923204f5249594120564f57454c205349474e204149),
  (30, 0x30783042344209096f0923204f5249594120564f57454c205349474e204f),
  (32, 0x307830423443090961750923204f5249594120564f57454c205349474e204155),
  (32, 0x30783042353609092b0923204f52495941204149204c454e475448204d41524b),
  (32, 0x30783042353709092b0923204f52495941204155204c454e475448204d41524b),
  (29, 0x307830423543090972720923204f52495941204c455454455220525241),
  (29, 0x307830423544090972680923204f52495941204c455454455220524841),
  (29, 0x307830423546090979790923204f52495941204c455454455220595941),
  (0, 0x0),
  (36, 0x307830423630090952520923204f52495941204c455454455220564f43414c4943205252),
  (36, 0x30783042363109094c4c0923204f52495941204c455454455220564f43414c4943204c4c),
  (28, 0x3078304236360909300923204f52495941204449474954205a45524f),
  (27, 0x3078304236370909310923204f52495941204449474954204f4e45),
  (27, 0x3078304236380909320923204f524959412044494749542054574f),
  (29, 0x3078304236390909330923204f52495941204449474954205448524545),
  (28, 0x3078304236410909340923204f5249594120444947495420464f5552),
  (28, 0x3078304236420909350923204f524959412044494749542046495645),
  (27, 0x3078304236430909360923204f5249594120444947495420534958),
  (29, 0x3078304236440909370923204f5249594120444947495420534556454e),
  (29, 0x3078304236450909380923204f52495941204449474954204549474854),
  (28, 0x3078304236460909390923204f52495941204449474954204e494e45),
  (0, 0x0),
  (31, 0x30783042383209094e09232054414d494c205349474e20414e555356415241),
  (30, 0x30783042383309094809232054414d494c205349474e2056495341524741),
  (26, 0x30783042383509096109232054414d494c204c45545445522041),
  (28, 0x3078304238360909616109232054414d494c204c4554544552204141),
  (26, 0x30783042383709096909232054414d494c204c45545445522049),
  (28, 0x3078304238380909696909232054414d494c204c4554544552204949),
  (26, 0x30783042383909097509232054414d494c204c45545445522055),
  (28, 0x3078304238410909757509232054414d494c204c4554544552205555),
  (26, 0x30783042384509096509232054414d494c204c45545445522045),
  (28, 0x3078304238460909656509232054414d494c204c4554544552204545),
  (0, 0x0),
  (28, 0x3078304239300909616909232054414d494c204c4554544552204149),
  (26, 0x30783042393209096f09232054414d494c204c4554544552204f),
  (28, 0x30783042393309096f6f09232054414d494c204c4554544552204f4f),
  (28, 0x3078304239340909617509232054414d494c204c4554544552204155),
  (27, 0x30783042393509096b09232054414d494c204c4554544552204b41),
  (29, 0x30783042393909096e6709232054414d494c204c4554544552204e4741),
  (27, 0x30783042394109096309232054414d494c204c4554544552204341),
  (27, 0x30783042394309096a09232054414d494c204c4554544552204a41),
  (29, 0x30783042394509096e7909232054414d494c204c4554544552204e5941),
  (29, 0x3078304239460909747409232054414d494c204c455454455220545441),
  (29, 0x30783042413309096e6e09232054414d494c204c4554544552204e4e41),
  (27, 0x30783042413409097409232054414d494c204c4554544552205441),
  (27, 0x30783042413809096e09232054414d494c204c4554544552204e41),
  (31, 0x30783042413909096e6e6e09232054414d494c204c4554544552204e4e4e41),
  (27, 0x30783042414109097009232054414d494c204c4554544552205041),
  (27, 0x30783042414509096d09232054414d494c204c4554544552204d41),
  (27, 0x30783042414609097909232054414d494c204c4554544552205941),
  (0, 0x0),
  (27, 0x30783042423009097209232054414d494c204c4554544552205241),
  (29, 0x3078304242310909727209232054414d494c204c455454455220525241),
  (27, 0x30783042423209096c09232054414d494c204c4554544552204c41),
  (29, 0x30783042423309096c6c09232054414d494c204c4554544552204c4c41),
  (31, 0x30783042423409096c6c6c09232054414d494c204c4554544552204c4c4c41),
  (27, 0x30783042423509097609232054414d494c204c4554544552205641),
  (29, 0x3078304242370909737309232054414d494c204c455454455220535341),
  (27, 0x30783042423809097309232054414d494c204c4554544552205341),
  (27, 0x30783042423909096809232054414d494c204c4554544552204841),
  (32, 0x3078304242450909616109232054414d494c20564f57454c205349474e204141),
  (30, 0x30783042424609096909232054414d494c20564f57454c205349474e2049),
  (0, 0x0),
  (32, 0x3078304243300909696909232054414d494c20564f57454c205349474e204949),
  (30, 0x30783042433109097509232054414d494c20564f57454c205349474e2055),
  (32, 0x3078304243320909757509232054414d494c20564f57454c205349474e205555),
  (30, 0x30783042433609096509232054414d494c20564f57454c205349474e2045),
  (32, 0x3078304243370909656509232054414d494c20564f57454c205349474e204545),
  (32, 0x3078304243380909616909232054414d494c20564f57454c205349474e204149),
  (30, 0x30783042434109096f09232054414d494c20564f57454c205349474e204f),
  (32, 0x30783042434209096f6f09232054414d494c20564f57454c205349474e204f4f),
  (32, 0x3078304243430909617509232054414d494c20564f57454c205349474e204155),
  (0, 0x0),
  (32, 0x30783042443709092b09232054414d494c204155204c454e475448204d41524b),
  (28, 0x30783042453609093009232054414d494c204449474954205a45524f),
  (27, 0x30783042453709093109232054414d494c204449474954204f4e45),
  (27, 0x30783042453809093209232054414d494c2044494749542054574f),
  (29, 0x30783042453909093309232054414d494c204449474954205448524545),
  (28, 0x30783042454109093409232054414d494c20444947495420464f5552),
  (28, 0x30783042454209093509232054414d494c2044494749542046495645),
  (27, 0x30783042454309093609232054414d494c20444947495420534958),
  (29, 0x30783042454409093709232054414d494c20444947495420534556454e),
  (29, 0x30783042454509093809232054414d494c204449474954204549474854),
  (28, 0x30783042454609093909232054414d494c204449474954204e494e45),
  (0, 0x0),
  (31, 0x30783042463009092b31302b09232054414d494c204e554d4245522054454e),
  (40, 0x30783042463109092b3130302b09232054414d494c204e554d424552204f4e452048554e44524544),
  (42, 0x30783042463209092b313030302b09232054414d494c204e554d424552204f4e452054484f5553414e44),
  (35, 0x30783043303109094e09232054454c554755205349474e2043414e44524142494e4455),
  (32, 0x30783043303209094e09232054454c554755205349474e20414e555356415241),
  (31, 0x30783043303309094809232054454c554755205349474e2056495341524741),
  (27, 0x30783043303509096109232054454c554755204c45545445522041),
  (29, 0x3078304330360909616109232054454c554755204c4554544552204141),
  (27, 0x30783043303709096909232054454c554755204c45545445522049),
  (29, 0x3078304330380909696909232054454c554755204c4554544552204949)]

/-- Lines 2119-2218 of table/legacy/unidecode.tbl. -/
def legacy_unidecode_23 : List (Nat × Nat) := [
  (27, 0x30783043303909097509232054454c554755204c45545445522055),
  (29, 0x3078304330410909757509232054454c554755204c4554544552205555),
  (35, 0x30783043304209095209232054454c554755204c455454455220564f43414c49432052),
  (35, 0x30783043304309094c09232054454c554755204c455454455220564f43414c4943204c),
  (27, 0x30783043304509096509232054454c554755204c45545445522045),
  (29, 0x3078304330460909656509232054454c554755204c4554544552204545),
  (0, 0x0),
  (29, 0x3078304331300909616909232054454c554755204c4554544552204149),
  (27, 0x30783043313209096f09232054454c554755204c4554544552204f),
  (29, 0x30783043313309096f6f09232054454c554755204c4554544552204f4f),
  (29, 0x3078304331340909617509232054454c554755204c4554544552204155),
  (28, 0x30783043313509096b09232054454c554755204c4554544552204b41),
  (30, 0x30783043313609096b6809232054454c554755204c4554544552204b4841),
  (28, 0x30783043313709096709232054454c554755204c4554544552204741),
  (30, 0x3078304331380909676809232054454c554755204c455454455220474841),
  (30, 0x30783043313909096e6709232054454c554755204c4554544552204e4741),
  (28, 0x30783043314109096309232054454c554755204c4554544552204341),
  (30, 0x3078304331420909636809232054454c554755204c455454455220434841),
  (28, 0x30783043314309096a09232054454c554755204c4554544552204a41),
  (30, 0x30783043314409096a6809232054454c554755204c4554544552204a4841),
  (30, 0x30783043314509096e7909232054454c554755204c4554544552204e5941),
  (30, 0x3078304331460909747409232054454c554755204c455454455220545441),
  (0, 0x0),
  (32, 0x307830433230090974746809232054454c554755204c45545445522054544841),
  (30, 0x3078304332310909646409232054454c554755204c455454455220444441),
  (32, 0x307830433232090964646809232054454c554755204c45545445522044444841),
  (30, 0x30783043323309096e6e09232054454c554755204c4554544552204e4e41),
  (28, 0x30783043323409097409232054454c554755204c4554544552205441),
  (30, 0x3078304332350909746809232054454c554755204c455454455220544841),
  (28, 0x30783043323609096409232054454c554755204c4554544552204441),
  (30, 0x3078304332370909646809232054454c554755204c455454455220444841),
  (28, 0x30783043323809096e09232054454c554755204c4554544552204e41),
  (28, 0x30783043324109097009232054454c554755204c4554544552205041),
  (30, 0x3078304332420909706809232054454c554755204c455454455220504841),
  (28, 0x30783043324309096209232054454c554755204c4554544552204241),
  (30, 0x3078304332440909626809232054454c554755204c455454455220424841),
  (28, 0x30783043324509096d09232054454c554755204c4554544552204d41),
  (28, 0x30783043324609097909232054454c554755204c4554544552205941),
  (0, 0x0),
  (28, 0x30783043333009097209232054454c554755204c4554544552205241),
  (30, 0x3078304333310909727209232054454c554755204c455454455220525241),
  (28, 0x30783043333209096c09232054454c554755204c4554544552204c41),
  (30, 0x30783043333309096c6c09232054454c554755204c4554544552204c4c41),
  (28, 0x30783043333509097609232054454c554755204c4554544552205641),
  (30, 0x3078304333360909736809232054454c554755204c455454455220534841),
  (30, 0x3078304333370909737309232054454c554755204c455454455220535341),
  (28, 0x30783043333809097309232054454c554755204c4554544552205341),
  (28, 0x30783043333909096809232054454c554755204c4554544552204841),
  (33, 0x3078304333450909616109232054454c55475520564f57454c205349474e204141),
  (31, 0x30783043334609096909232054454c55475520564f57454c205349474e2049),
  (0, 0x0),
  (33, 0x3078304334300909696909232054454c55475520564f57454c205349474e204949),
  (31, 0x30783043343109097509232054454c55475520564f57454c205349474e2055),
  (33, 0x3078304334320909757509232054454c55475520564f57454c205349474e205555),
  (39, 0x30783043343309095209232054454c55475520564f57454c205349474e20564f43414c49432052),
  (41, 0x3078304334340909525209232054454c55475520564f57454c205349474e20564f43414c4943205252),
  (31, 0x30783043343609096509232054454c55475520564f57454c205349474e2045),
  (33, 0x3078304334370909656509232054454c55475520564f57454c205349474e204545),
  (33, 0x3078304334380909616909232054454c55475520564f57454c205349474e204149),
  (31, 0x30783043344109096f09232054454c55475520564f57454c205349474e204f),
  (33, 0x30783043344209096f6f09232054454c55475520564f57454c205349474e204f4f),
  (33, 0x3078304334430909617509232054454c55475520564f57454c205349474e204155),
  (30, 0x30783043353509092b09232054454c554755204c454e475448204d41524b),
  (33, 0x30783043353609092b09232054454c554755204149204c454e475448204d41524b),
  (0, 0x0),
  (37, 0x3078304336300909525209232054454c554755204c455454455220564f43414c4943205252),
  (37, 0x30783043363109094c4c09232054454c554755204c455454455220564f43414c4943204c4c),
  (29, 0x30783043363609093009232054454c554755204449474954205a45524f),
  (28, 0x30783043363709093109232054454c554755204449474954204f4e45),
  (28, 0x30783043363809093209232054454c5547552044494749542054574f),
  (30, 0x30783043363909093309232054454c554755204449474954205448524545),
  (29, 0x30783043364109093409232054454c55475520444947495420464f5552),
  (29, 0x30783043364209093509232054454c5547552044494749542046495645),
  (28, 0x30783043364309093609232054454c55475520444947495420534958),
  (30, 0x30783043364409093709232054454c55475520444947495420534556454e),
  (30, 0x30783043364509093809232054454c554755204449474954204549474854),
  (29, 0x30783043364609093909232054454c554755204449474954204e494e45),
  (33, 0x30783043383209094e0923204b414e4e414441205349474e20414e555356415241),
  (32, 0x3078304338330909480923204b414e4e414441205349474e2056495341524741),
  (28, 0x3078304338350909610923204b414e4e414441204c45545445522041),
  (30, 0x307830433836090961610923204b414e4e414441204c4554544552204141),
  (28, 0x3078304338370909690923204b414e4e414441204c45545445522049),
  (30, 0x307830433838090969690923204b414e4e414441204c4554544552204949),
  (28, 0x3078304338390909750923204b414e4e414441204c45545445522055),
  (30, 0x307830433841090975750923204b414e4e414441204c4554544552205555),
  (36, 0x3078304338420909520923204b414e4e414441204c455454455220564f43414c49432052),
  (36, 0x30783043384309094c0923204b414e4e414441204c455454455220564f43414c4943204c),
  (28, 0x3078304338450909650923204b414e4e414441204c45545445522045),
  (30, 0x307830433846090965650923204b414e4e414441204c4554544552204545),
  (0, 0x0),
  (30, 0x307830433930090961690923204b414e4e414441204c4554544552204149),
  (28, 0x30783043393209096f0923204b414e4e414441204c4554544552204f),
  (30, 0x30783043393309096f6f0923204b414e4e414441204c4554544552204f4f),
  (30, 0x307830433934090961750923204b414e4e414441204c4554544552204155),
  (29, 0x30783043393509096b0923204b414e4e414441204c4554544552204b41),
  (31, 0x30783043393609096b680923204b414e4e414441204c4554544552204b4841),
  (29, 0x3078304339370909670923204b414e4e414441204c4554544552204741),
  (31, 0x307830433938090967680923204b414e4e414441204c455454455220474841),
  (31, 0x30783043393909096e670923204b414e4e414441204c4554544552204e4741),
  (29, 0x3078304339410909630923204b414e4e414441204c4554544552204341)]

/-- Lines 2219-2318 of table/legacy/unidecode.tbl. -/
def legacy_unidecode_24 : List (Nat × Nat) := [
  (31, 0x307830433942090963680923204b414e4e414441204c455454455220434841),
  (29, 0x30783043394309096a0923204b414e4e414441204c4554544552204a41),
  (31, 0x30783043394409096a680923204b414e4e414441204c4554544552204a4841),
  (31, 0x30783043394509096e790923204b414e4e414441204c4554544552204e5941),
  (31, 0x307830433946090974740923204b414e4e414441204c455454455220545441),
  (0, 0x0),
  (33, 0x30783043413009097474680923204b414e4e414441204c45545445522054544841),
  (31, 0x307830434131090964640923204b414e4e414441204c455454455220444441),
  (33, 0x30783043413209096464680923204b414e4e414441204c45545445522044444841),
  (31, 0x30783043413309096e6e0923204b414e4e414441204c4554544552204e4e41),
  (29, 0x3078304341340909740923204b414e4e414441204c4554544552205441),
  (31, 0x307830434135090974680923204b414e4e414441204c455454455220544841),
  (29, 0x3078304341360909640923204b414e4e414441204c4554544552204441),
  (31, 0x307830434137090964680923204b414e4e414441204c455454455220444841),
  (29, 0x30783043413809096e0923204b414e4e414441204c4554544552204e41),
  (29, 0x3078304341410909700923204b414e4e414441204c4554544552205041),
  (31, 0x307830434142090970680923204b414e4e414441204c455454455220504841),
  (29, 0x3078304341430909620923204b414e4e414441204c4554544552204241),
  (31, 0x307830434144090962680923204b414e4e414441204c455454455220424841),
  (29, 0x30783043414509096d0923204b414e4e414441204c4554544552204d41),
  (29, 0x3078304341460909790923204b414e4e414441204c4554544552205941),
  (0, 0x0),
  (29, 0x3078304342300909720923204b414e4e414441204c4554544552205241),
  (31, 0x307830434231090972720923204b414e4e414441204c455454455220525241),
  (29, 0x30783043423209096c0923204b414e4e414441204c4554544552204c41),
  (31, 0x30783043423309096c6c0923204b414e4e414441204c4554544552204c4c41),
  (29, 0x3078304342350909760923204b414e4e414441204c4554544552205641),
  (31, 0x307830434236090973680923204b414e4e414441204c455454455220534841),
  (31, 0x307830434237090973730923204b414e4e414441204c455454455220535341),
  (29, 0x3078304342380909730923204b414e4e414441204c4554544552205341),
  (29, 0x3078304342390909680923204b414e4e414441204c4554544552204841),
  (34, 0x307830434245090961610923204b414e4e41444120564f57454c205349474e204141),
  (32, 0x3078304342460909690923204b414e4e41444120564f57454c205349474e2049),
  (0, 0x0),
  (34, 0x307830434330090969690923204b414e4e41444120564f57454c205349474e204949),
  (32, 0x3078304343310909750923204b414e4e41444120564f57454c205349474e2055),
  (34, 0x307830434332090975750923204b414e4e41444120564f57454c205349474e205555),
  (40, 0x3078304343330909520923204b414e4e41444120564f57454c205349474e20564f43414c49432052),
  (42, 0x307830434334090952520923204b414e4e41444120564f57454c205349474e20564f43414c4943205252),
  (32, 0x3078304343360909650923204b414e4e41444120564f57454c205349474e2045),
  (34, 0x307830434337090965650923204b414e4e41444120564f57454c205349474e204545),
  (34, 0x307830434338090961690923204b414e4e41444120564f57454c205349474e204149),
  (32, 0x30783043434109096f0923204b414e4e41444120564f57454c205349474e204f),
  (34, 0x30783043434209096f6f0923204b414e4e41444120564f57454c205349474e204f4f),
  (34, 0x307830434343090961750923204b414e4e41444120564f57454c205349474e204155),
  (31, 0x30783043443509092b0923204b414e4e414441204c454e475448204d41524b),
  (34, 0x30783043443609092b0923204b414e4e414441204149204c454e475448204d41524b),
  (31, 0x30783043444509096c6c6c0923204b414e4e414441204c4554544552204641),
  (0, 0x0),
  (38, 0x307830434530090952520923204b414e4e414441204c455454455220564f43414c4943205252),
  (38, 0x30783043453109094c4c0923204b414e4e414441204c455454455220564f43414c4943204c4c),
  (30, 0x3078304345360909300923204b414e4e414441204449474954205a45524f),
  (29, 0x3078304345370909310923204b414e4e414441204449474954204f4e45),
  (29, 0x3078304345380909320923204b414e4e4144412044494749542054574f),
  (31, 0x3078304345390909330923204b414e4e414441204449474954205448524545),
  (30, 0x3078304345410909340923204b414e4e41444120444947495420464f5552),
  (30, 0x3078304345420909350923204b414e4e4144412044494749542046495645),
  (29, 0x3078304345430909360923204b414e4e41444120444947495420534958),
  (31, 0x3078304345440909370923204b414e4e41444120444947495420534556454e),
  (31, 0x3078304345450909380923204b414e4e414441204449474954204549474854),
  (30, 0x3078304345460909390923204b414e4e414441204449474954204e494e45),
  (35, 0x30783044303209094e0923204d414c4159414c414d205349474e20414e555356415241),
  (34, 0x3078304430330909480923204d414c4159414c414d205349474e2056495341524741),
  (30, 0x3078304430350909610923204d414c4159414c414d204c45545445522041),
  (32, 0x307830443036090961610923204d414c4159414c414d204c4554544552204141),
  (30, 0x3078304430370909690923204d414c4159414c414d204c45545445522049),
  (32, 0x307830443038090969690923204d414c4159414c414d204c4554544552204949),
  (30, 0x3078304430390909750923204d414c4159414c414d204c45545445522055),
  (32, 0x307830443041090975750923204d414c4159414c414d204c4554544552205555),
  (38, 0x3078304430420909520923204d414c4159414c414d204c455454455220564f43414c49432052),
  (38, 0x30783044304309094c0923204d414c4159414c414d204c455454455220564f43414c4943204c),
  (30, 0x3078304430450909650923204d414c4159414c414d204c45545445522045),
  (32, 0x307830443046090965650923204d414c4159414c414d204c4554544552204545),
  (0, 0x0),
  (32, 0x307830443130090961690923204d414c4159414c414d204c4554544552204149),
  (30, 0x30783044313209096f0923204d414c4159414c414d204c4554544552204f),
  (32, 0x30783044313309096f6f0923204d414c4159414c414d204c4554544552204f4f),
  (32, 0x307830443134090961750923204d414c4159414c414d204c4554544552204155),
  (31, 0x30783044313509096b0923204d414c4159414c414d204c4554544552204b41),
  (33, 0x30783044313609096b680923204d414c4159414c414d204c4554544552204b4841),
  (31, 0x3078304431370909670923204d414c4159414c414d204c4554544552204741),
  (33, 0x307830443138090967680923204d414c4159414c414d204c455454455220474841),
  (33, 0x30783044313909096e670923204d414c4159414c414d204c4554544552204e4741),
  (31, 0x3078304431410909630923204d414c4159414c414d204c4554544552204341),
  (33, 0x307830443142090963680923204d414c4159414c414d204c455454455220434841),
  (31, 0x30783044314309096a0923204d414c4159414c414d204c4554544552204a41),
  (33, 0x30783044314409096a680923204d414c4159414c414d204c4554544552204a4841),
  (33, 0x30783044314509096e790923204d414c4159414c414d204c4554544552204e5941),
  (33, 0x307830443146090974740923204d414c4159414c414d204c455454455220545441),
  (0, 0x0),
  (35, 0x30783044323009097474680923204d414c4159414c414d204c45545445522054544841),
  (33, 0x307830443231090964640923204d414c4159414c414d204c455454455220444441),
  (35, 0x30783044323209096464680923204d414c4159414c414d204c45545445522044444841),
  (33, 0x30783044323309096e6e0923204d414c4159414c414d204c4554544552204e4e41),
  (31, 0x3078304432340909740923204d414c4159414c414d204c4554544552205441),
  (33, 0x307830443235090974680923204d414c4159414c414d204c455454455220544841),
  (31, 0x3078304432360909640923204d414c4159414c414d204c4554544552204441),
  (33, 0x307830443237090964680923204d414c4159414c414d204c455454455220444841),
  (31, 0x30783044323809096e0923204d414c4159414c414d204c4554544552204e41),
  (31, 0x3078304432410909700923204d414c4159414c414d204c4554544552205041)]

/-- Lines 2319-2418 of table/legacy/unidecode.tbl. -/
def legacy_unidecode_25 : List (Nat × Nat) := [
  (33, 0x307830443242090970680923204d414c4159414c414d204c455454455220504841),
  (31, 0x3078304432430909620923204d414c4159414c414d204c4554544552204241),
  (33, 0x307830443244090962680923204d414c4159414c414d204c455454455220424841),
  (31, 0x30783044324509096d0923204d414c4159414c414d204c4554544552204d41),
  (31, 0x3078304432460909790923204d414c4159414c414d204c4554544552205941),
  (0, 0x0),
  (31, 0x3078304433300909720923204d414c4159414c414d204c4554544552205241),
  (33, 0x307830443331090972720923204d414c4159414c414d204c455454455220525241),
  (31, 0x30783044333209096c0923204d414c4159414c414d204c4554544552204c41),
  (33, 0x30783044333309096c6c0923204d414c4159414c414d204c4554544552204c4c41),
  (35, 0x30783044333409096c6c6c0923204d414c4159414c414d204c4554544552204c4c4c41),
  (31, 0x3078304433350909760923204d414c4159414c414d204c4554544552205641),
  (33, 0x307830443336090973680923204d414c4159414c414d204c455454455220534841),
  (33, 0x307830443337090973730923204d414c4159414c414d204c455454455220535341),
  (31, 0x3078304433380909730923204d414c4159414c414d204c4554544552205341),
  (31, 0x3078304433390909680923204d414c4159414c414d204c4554544552204841),
  (36, 0x307830443345090961610923204d414c4159414c414d20564f57454c205349474e204141),
  (34, 0x3078304433460909690923204d414c4159414c414d20564f57454c205349474e2049),
  (0, 0x0),
  (36, 0x307830443430090969690923204d414c4159414c414d20564f57454c205349474e204949),
  (34, 0x3078304434310909750923204d414c4159414c414d20564f57454c205349474e2055),
  (36, 0x307830443432090975750923204d414c4159414c414d20564f57454c205349474e205555),
  (42, 0x3078304434330909520923204d414c4159414c414d20564f57454c205349474e20564f43414c49432052),
  (34, 0x3078304434360909650923204d414c4159414c414d20564f57454c205349474e2045),
  (36, 0x307830443437090965650923204d414c4159414c414d20564f57454c205349474e204545),
  (36, 0x307830443438090961690923204d414c4159414c414d20564f57454c205349474e204149),
  (34, 0x30783044344109096f0923204d414c4159414c414d20564f57454c205349474e204f),
  (36, 0x30783044344209096f6f0923204d414c4159414c414d20564f57454c205349474e204f4f),
  (36, 0x307830443443090961750923204d414c4159414c414d20564f57454c205349474e204155),
  (36, 0x30783044353709092b0923204d414c4159414c414d204155204c454e475448204d41524b),
  (0, 0x0),
  (40, 0x307830443630090952520923204d414c4159414c414d204c455454455220564f43414c4943205252),
  (40, 0x30783044363109094c4c0923204d414c4159414c414d204c455454455220564f43414c4943204c4c),
  (32, 0x3078304436360909300923204d414c4159414c414d204449474954205a45524f),
  (31, 0x3078304436370909310923204d414c4159414c414d204449474954204f4e45),
  (31, 0x3078304436380909320923204d414c4159414c414d2044494749542054574f),
  (33, 0x3078304436390909330923204d414c4159414c414d204449474954205448524545),
  (32, 0x3078304436410909340923204d414c4159414c414d20444947495420464f5552),
  (32, 0x3078304436420909350923204d414c4159414c414d2044494749542046495645),
  (31, 0x3078304436430909360923204d414c4159414c414d20444947495420534958),
  (33, 0x3078304436440909370923204d414c4159414c414d20444947495420534556454e),
  (33, 0x3078304436450909380923204d414c4159414c414d204449474954204549474854),
  (32, 0x3078304436460909390923204d414c4159414c414d204449474954204e494e45),
  (0, 0x0),
  (35, 0x30783044383209094e09232053494e48414c41205349474e20414e5553564152415941),
  (34, 0x30783044383309094809232053494e48414c41205349474e20564953415247415941),
  (33, 0x30783044383509096109232053494e48414c41204c4554544552204159414e4e41),
  (35, 0x3078304438360909616109232053494e48414c41204c455454455220414159414e4e41),
  (35, 0x3078304438370909616509232053494e48414c41204c455454455220414559414e4e41),
  (37, 0x307830443838090961616509232053494e48414c41204c45545445522041454559414e4e41),
  (33, 0x30783044383909096909232053494e48414c41204c4554544552204959414e4e41),
  (35, 0x3078304438410909696909232053494e48414c41204c455454455220494959414e4e41),
  (33, 0x30783044384209097509232053494e48414c41204c4554544552205559414e4e41),
  (35, 0x3078304438430909757509232053494e48414c41204c455454455220555559414e4e41),
  (35, 0x30783044384409095209232053494e48414c41204c45545445522049525559414e4e41),
  (37, 0x3078304438450909525209232053494e48414c41204c4554544552204952555559414e4e41),
  (35, 0x30783044384609094c09232053494e48414c41204c455454455220494c5559414e4e41),
  (0, 0x0),
  (37, 0x30783044393009094c4c09232053494e48414c41204c455454455220494c555559414e4e41),
  (33, 0x30783044393109096509232053494e48414c41204c4554544552204559414e4e41),
  (35, 0x3078304439320909656509232053494e48414c41204c455454455220454559414e4e41),
  (35, 0x3078304439330909616909232053494e48414c41204c455454455220414959414e4e41),
  (33, 0x30783044393409096f09232053494e48414c41204c4554544552204f59414e4e41),
  (35, 0x30783044393509096f6f09232053494e48414c41204c4554544552204f4f59414e4e41),
  (35, 0x3078304439360909617509232053494e48414c41204c455454455220415559414e4e41),
  (45, 0x30783044394109096b09232053494e48414c41204c455454455220414c5041505241414e41204b4159414e4e41),
  (47, 0x30783044394209096b6809232053494e48414c41204c4554544552204d41484141505241414e41204b4159414e4e41),
  (45, 0x30783044394309096709232053494e48414c41204c455454455220414c5041505241414e4120474159414e4e41),
  (47, 0x3078304439440909676809232053494e48414c41204c4554544552204d41484141505241414e4120474159414e4e41),
  (46, 0x30783044394509096e6709232053494e48414c41204c4554544552204b414e54414a41204e414153494b59415941),
  (44, 0x30783044394609096e6e6709232053494e48414c41204c45545445522053414e59414b4120474159414e4e41),
  (0, 0x0),
  (45, 0x30783044413009096309232053494e48414c41204c455454455220414c5041505241414e4120434159414e4e41),
  (47, 0x3078304441310909636809232053494e48414c41204c4554544552204d41484141505241414e4120434159414e4e41),
  (45, 0x30783044413209096a09232053494e48414c41204c455454455220414c5041505241414e41204a4159414e4e41),
  (47, 0x30783044413309096a6809232053494e48414c41204c4554544552204d41484141505241414e41204a4159414e4e41),
  (46, 0x30783044413409096e7909232053494e48414c41204c4554544552205441414c554a41204e414153494b59415941),
  (57, 0x30783044413509096a6e7909232053494e48414c41204c4554544552205441414c554a412053414e594f4f4741204e41414b53494b59415941),
  (44, 0x30783044413609096e796a09232053494e48414c41204c45545445522053414e59414b41204a4159414e4e41),
  (47, 0x3078304441370909747409232053494e48414c41204c455454455220414c5041505241414e412054544159414e4e41),
  (49, 0x307830444138090974746809232053494e48414c41204c4554544552204d41484141505241414e412054544159414e4e41),
  (47, 0x3078304441390909646409232053494e48414c41204c455454455220414c5041505241414e412044444159414e4e41),
  (49, 0x307830444141090964646809232053494e48414c41204c4554544552204d41484141505241414e412044444159414e4e41),
  (45, 0x30783044414209096e6e09232053494e48414c41204c4554544552204d5555524448414a41204e4159414e4e41),
  (46, 0x30783044414309096e6e646409232053494e48414c41204c45545445522053414e59414b412044444159414e4e41),
  (45, 0x30783044414409097409232053494e48414c41204c455454455220414c5041505241414e4120544159414e4e41),
  (47, 0x3078304441450909746809232053494e48414c41204c4554544552204d41484141505241414e4120544159414e4e41),
  (45, 0x30783044414609096409232053494e48414c41204c455454455220414c5041505241414e4120444159414e4e41),
  (0, 0x0),
  (47, 0x3078304442300909646809232053494e48414c41204c4554544552204d41484141505241414e4120444159414e4e41),
  (42, 0x30783044423109096e09232053494e48414c41204c45545445522044414e54414a41204e4159414e4e41),
  (43, 0x30783044423309096e6409232053494e48414c41204c45545445522053414e59414b4120444159414e4e41),
  (45, 0x30783044423409097009232053494e48414c41204c455454455220414c5041505241414e4120504159414e4e41),
  (47, 0x3078304442350909706809232053494e48414c41204c4554544552204d41484141505241414e4120504159414e4e41),
  (45, 0x30783044423609096209232053494e48414c41204c455454455220414c5041505241414e4120424159414e4e41),
  (47, 0x3078304442370909626809232053494e48414c41204c4554544552204d41484141505241414e4120424159414e4e41),
  (34, 0x30783044423809096d09232053494e48414c41204c4554544552204d4159414e4e41),
  (40, 0x30783044423909096d6209232053494e48414c41204c455454455220414d424120424159414e4e41),
  (34, 0x30783044424109097909232053494e48414c41204c455454455220594159414e4e41),
  (34, 0x30783044424209097209232053494e48414c41204c455454455220524159414e4e41)]

/-- Lines 2419-2518 of table/legacy/unidecode.tbl. -/
def legacy_unidecode_26 : List (Nat × Nat) := [
  (42, 0x30783044424409096c09232053494e48414c41204c45545445522044414e54414a41204c4159414e4e41),
  (0, 0x0),
  (34, 0x30783044433009097609232053494e48414c41204c455454455220564159414e4e41),
  (43, 0x3078304443310909736809232053494e48414c41204c4554544552205441414c554a4120534159414e4e41),
  (45, 0x3078304443320909737309232053494e48414c41204c4554544552204d5555524448414a4120534159414e4e41),
  (42, 0x30783044433309097309232053494e48414c41204c45545445522044414e54414a4120534159414e4e41),
  (34, 0x30783044433409096809232053494e48414c41204c455454455220484159414e4e41),
  (45, 0x30783044433509096c6c09232053494e48414c41204c4554544552204d5555524448414a41204c4159414e4e41),
  (34, 0x30783044433609096609232053494e48414c41204c455454455220464159414e4e41),
  (42, 0x3078304443460909616109232053494e48414c4120564f57454c205349474e2041454c412d50494c4c41),
  (0, 0x0),
  (48, 0x3078304444300909616509232053494e48414c4120564f57454c205349474e204b4554544920414544412d50494c4c41),
  (48, 0x307830444431090961616509232053494e48414c4120564f57454c205349474e204449474120414544412d50494c4c41),
  (45, 0x30783044443209096909232053494e48414c4120564f57454c205349474e204b455454492049532d50494c4c41),
  (45, 0x3078304444330909696909232053494e48414c4120564f57454c205349474e20444947412049532d50494c4c41),
  (46, 0x30783044443409097509232053494e48414c4120564f57454c205349474e204b45545449205041412d50494c4c41),
  (46, 0x3078304444360909757509232053494e48414c4120564f57454c205349474e2044494741205041412d50494c4c41),
  (43, 0x30783044443809095209232053494e48414c4120564f57454c205349474e204741455454412d50494c4c41),
  (38, 0x30783044443909096509232053494e48414c4120564f57454c205349474e204b4f4d42555641),
  (44, 0x3078304444410909656509232053494e48414c4120564f57454c205349474e2044494741204b4f4d42555641),
  (42, 0x3078304444420909616909232053494e48414c4120564f57454c205349474e204b4f4d42552044454b41),
  (53, 0x30783044444309096f09232053494e48414c4120564f57454c205349474e204b4f4d42555641204841412041454c412d50494c4c41),
  (59, 0x30783044444409096f6f09232053494e48414c4120564f57454c205349474e204b4f4d425556412048414120444947412041454c412d50494c4c41),
  (55, 0x3078304444450909617509232053494e48414c4120564f57454c205349474e204b4f4d425556412048414120474159414e554b49545441),
  (42, 0x30783044444609094c09232053494e48414c4120564f57454c205349474e20474159414e554b49545441),
  (49, 0x3078304446320909525209232053494e48414c4120564f57454c205349474e2044494741204741455454412d50494c4c41),
  (48, 0x30783044463309094c4c09232053494e48414c4120564f57454c205349474e204449474120474159414e554b49545441),
  (44, 0x3078304446340909202e2009232053494e48414c412050554e4354554154494f4e204b554e4444414c495941),
  (33, 0x30783045303109096b0923205448414920434841524143544552204b4f204b4149),
  (36, 0x30783045303209096b680923205448414920434841524143544552204b484f204b484149),
  (37, 0x30783045303309096b680923205448414920434841524143544552204b484f204b48554154),
  (37, 0x30783045303409096b680923205448414920434841524143544552204b484f204b48574149),
  (36, 0x30783045303509096b680923205448414920434841524143544552204b484f204b484f4e),
  (39, 0x30783045303609096b680923205448414920434841524143544552204b484f2052414b48414e47),
  (35, 0x30783045303709096e670923205448414920434841524143544552204e474f204e4755),
  (37, 0x307830453038090963636809232054484149204348415241435445522043484f204348414e),
  (37, 0x3078304530390909636809232054484149204348415241435445522043484f204348494e47),
  (37, 0x3078304530410909636809232054484149204348415241435445522043484f204348414e47),
  (33, 0x30783045304209096368092320544841492043484152414354455220534f20534f),
  (36, 0x3078304530430909636809232054484149204348415241435445522043484f2043484f45),
  (34, 0x307830453044090979092320544841492043484152414354455220594f2059494e47),
  (35, 0x307830453045090964092320544841492043484152414354455220444f204348414441),
  (35, 0x307830453046090974092320544841492043484152414354455220544f20504154414b),
  (0, 0x0),
  (36, 0x3078304531300909746809232054484149204348415241435445522054484f205448414e),
  (42, 0x3078304531310909746809232054484149204348415241435445522054484f204e414e474d4f4e54484f),
  (39, 0x3078304531320909746809232054484149204348415241435445522054484f205048555448414f),
  (33, 0x30783045313309096e0923205448414920434841524143544552204e4f204e454e),
  (33, 0x307830453134090964092320544841492043484152414354455220444f2044454b),
  (33, 0x307830453135090974092320544841492043484152414354455220544f2054414f),
  (37, 0x3078304531360909746809232054484149204348415241435445522054484f205448554e47),
  (38, 0x3078304531370909746809232054484149204348415241435445522054484f2054484148414e),
  (37, 0x3078304531380909746809232054484149204348415241435445522054484f2054484f4e47),
  (32, 0x30783045313909096e0923205448414920434841524143544552204e4f204e55),
  (36, 0x307830453141090962092320544841492043484152414354455220424f204241494d4149),
  (33, 0x307830453142090970092320544841492043484152414354455220504f20504c41),
  (37, 0x3078304531430909706809232054484149204348415241435445522050484f205048554e47),
  (32, 0x307830453144090966092320544841492043484152414354455220464f204641),
  (36, 0x3078304531450909706809232054484149204348415241435445522050484f205048414e),
  (33, 0x307830453146090966092320544841492043484152414354455220464f2046414e),
  (0, 0x0),
  (39, 0x3078304532300909706809232054484149204348415241435445522050484f2053414d5048414f),
  (32, 0x30783045323109096d0923205448414920434841524143544552204d4f204d41),
  (33, 0x307830453232090979092320544841492043484152414354455220594f2059414b),
  (33, 0x307830453233090972092320544841492043484152414354455220524f20525541),
  (29, 0x3078304532340909520923205448414920434841524143544552205255),
  (34, 0x30783045323509096c0923205448414920434841524143544552204c4f204c494e47),
  (29, 0x30783045323609094c0923205448414920434841524143544552204c55),
  (34, 0x307830453237090977092320544841492043484152414354455220574f205741454e),
  (34, 0x307830453238090973092320544841492043484152414354455220534f2053414c41),
  (34, 0x307830453239090973092320544841492043484152414354455220534f2052555349),
  (33, 0x307830453241090973092320544841492043484152414354455220534f20535541),
  (33, 0x307830453242090968092320544841492043484152414354455220484f20484950),
  (35, 0x30783045324309096c0923205448414920434841524143544552204c4f204348554c41),
  (32, 0x3078304532440909600923205448414920434841524143544552204f20414e47),
  (36, 0x307830453245090968092320544841492043484152414354455220484f204e4f4b48554b),
  (36, 0x30783045324609097e09232054484149204348415241435445522050414959414e4e4f49),
  (0, 0x0),
  (33, 0x307830453330090961092320544841492043484152414354455220534152412041),
  (39, 0x3078304533310909610923205448414920434841524143544552204d41492048414e2d414b4154),
  (35, 0x3078304533320909616109232054484149204348415241435445522053415241204141),
  (35, 0x3078304533330909616d0923205448414920434841524143544552205341524120414d),
  (33, 0x307830453334090969092320544841492043484152414354455220534152412049),
  (35, 0x3078304533350909696909232054484149204348415241435445522053415241204949),
  (35, 0x3078304533360909756509232054484149204348415241435445522053415241205545),
  (37, 0x30783045333709097575650923205448414920434841524143544552205341524120554545),
  (33, 0x307830453338090975092320544841492043484152414354455220534152412055),
  (35, 0x3078304533390909757509232054484149204348415241435445522053415241205555),
  (36, 0x30783045334109092227220923205448414920434841524143544552205048494e544855),
  (39, 0x307830453346090942682e092320544841492043555252454e43592053594d424f4c2042414854),
  (0, 0x0),
  (33, 0x307830453430090965092320544841492043484152414354455220534152412045),
  (35, 0x3078304534310909616509232054484149204348415241435445522053415241204145),
  (33, 0x30783045343209096f09232054484149204348415241435445522053415241204f),
  (43, 0x3078304534330909616909232054484149204348415241435445522053415241204149204d41494d55414e),
  (44, 0x3078304534340909616909232054484149204348415241435445522053415241204149204d41494d414c4149),
  (39, 0x3078304534350909616f0923205448414920434841524143544552204c414b4b48414e4759414f),
  (35, 0x30783045343609092b0923205448414920434841524143544552204d414959414d4f4b),
  (35, 0x30783045344409094d0923205448414920434841524143544552204e494b4841484954),
  (36, 0x3078304534460909202a20092320544841492043484152414354455220464f4e474d414e)]

/-- Lines 2519-2618 of table/legacy/unidecode.tbl. -/
def legacy_unidecode_27 : List (Nat × Nat) := [
  (0, 0x0),
  (27, 0x30783045353009093009232054484149204449474954205a45524f),
  (26, 0x30783045353109093109232054484149204449474954204f4e45),
  (26, 0x307830453532090932092320544841492044494749542054574f),
  (28, 0x30783045353309093309232054484149204449474954205448524545),
  (27, 0x3078304535340909340923205448414920444947495420464f5552),
  (27, 0x307830453535090935092320544841492044494749542046495645),
  (26, 0x3078304535360909360923205448414920444947495420534958),
  (28, 0x3078304535370909370923205448414920444947495420534556454e),
  (28, 0x30783045353809093809232054484149204449474954204549474854),
  (27, 0x30783045353909093909232054484149204449474954204e494e45),
  (40, 0x3078304535410909202f2f20092320544841492043484152414354455220414e474b48414e4b4855),
  (37, 0x3078304535420909202f2f2f200923205448414920434841524143544552204b484f4d5554),
  (25, 0x30783045383109096b0923204c414f204c4554544552204b4f),
  (32, 0x30783045383209096b680923204c414f204c4554544552204b484f2053554e47),
  (31, 0x30783045383409096b680923204c414f204c4554544552204b484f2054414d),
  (27, 0x30783045383709096e670923204c414f204c4554544552204e474f),
  (26, 0x307830453838090963680923204c414f204c455454455220434f),
  (29, 0x3078304538410909730923204c414f204c455454455220534f2054414d),
  (27, 0x30783045384409096e790923204c414f204c4554544552204e594f),
  (25, 0x3078304539340909640923204c414f204c455454455220444f),
  (25, 0x3078304539350909680923204c414f204c455454455220544f),
  (32, 0x307830453936090974680923204c414f204c45545445522054484f2053554e47),
  (31, 0x307830453937090974680923204c414f204c45545445522054484f2054414d),
  (25, 0x30783045393909096e0923204c414f204c4554544552204e4f),
  (25, 0x3078304539410909620923204c414f204c455454455220424f),
  (25, 0x3078304539420909700923204c414f204c455454455220504f),
  (32, 0x307830453943090970680923204c414f204c45545445522050484f2053554e47),
  (29, 0x3078304539440909660923204c414f204c455454455220464f2054414d),
  (31, 0x307830453945090970680923204c414f204c45545445522050484f2054414d),
  (30, 0x3078304539460909660923204c414f204c455454455220464f2053554e47),
  (25, 0x30783045413109096d0923204c414f204c4554544552204d4f),
  (25, 0x3078304541320909790923204c414f204c455454455220594f),
  (30, 0x3078304541330909720923204c414f204c4554544552204c4f204c494e47),
  (30, 0x30783045413509096c0923204c414f204c4554544552204c4f204c4f4f54),
  (25, 0x3078304541370909770923204c414f204c455454455220574f),
  (30, 0x3078304541410909730923204c414f204c455454455220534f2053554e47),
  (30, 0x3078304541420909680923204c414f204c455454455220484f2053554e47),
  (24, 0x3078304541440909600923204c414f204c4554544552204f),
  (24, 0x30783045414609097e0923204c414f20454c4c4950534953),
  (0, 0x0),
  (28, 0x3078304542300909610923204c414f20564f57454c205349474e2041),
  (30, 0x307830454232090961610923204c414f20564f57454c205349474e204141),
  (30, 0x3078304542330909616d0923204c414f20564f57454c205349474e20414d),
  (28, 0x3078304542340909690923204c414f20564f57454c205349474e2049),
  (30, 0x307830454235090969690923204c414f20564f57454c205349474e204949),
  (28, 0x3078304542360909790923204c414f20564f57454c205349474e2059),
  (30, 0x307830454237090979790923204c414f20564f57454c205349474e205959),
  (28, 0x3078304542380909750923204c414f20564f57454c205349474e2055),
  (30, 0x307830454239090975750923204c414f20564f57454c205349474e205555),
  (34, 0x30783045424209096f0923204c414f20564f57454c205349474e204d4149204b4f4e),
  (33, 0x30783045424309096c0923204c414f2053454d49564f57454c205349474e204c4f),
  (35, 0x30783045424409096e790923204c414f2053454d49564f57454c205349474e204e594f),
  (0, 0x0),
  (28, 0x3078304543300909650923204c414f20564f57454c205349474e2045),
  (30, 0x307830454331090965690923204c414f20564f57454c205349474e204549),
  (28, 0x30783045433209096f0923204c414f20564f57454c205349474e204f),
  (30, 0x307830454333090961790923204c414f20564f57454c205349474e204159),
  (30, 0x307830454334090961690923204c414f20564f57454c205349474e204149),
  (21, 0x30783045433609092b0923204c414f204b4f204c41),
  (25, 0x30783045434409094d0923204c414f204e4947474148495441),
  (0, 0x0),
  (26, 0x3078304544300909300923204c414f204449474954205a45524f),
  (25, 0x3078304544310909310923204c414f204449474954204f4e45),
  (25, 0x3078304544320909320923204c414f2044494749542054574f),
  (27, 0x3078304544330909330923204c414f204449474954205448524545),
  (26, 0x3078304544340909340923204c414f20444947495420464f5552),
  (26, 0x3078304544350909350923204c414f2044494749542046495645),
  (25, 0x3078304544360909360923204c414f20444947495420534958),
  (27, 0x3078304544370909370923204c414f20444947495420534556454e),
  (27, 0x3078304544380909380923204c414f204449474954204549474854),
  (26, 0x3078304544390909390923204c414f204449474954204e494e45),
  (22, 0x3078304544430909686e0923204c414f20484f204e4f),
  (22, 0x3078304544440909686d0923204c414f20484f204d4f),
  (0, 0x0),
  (1, 0x23),
  (29, 0x2320436861726163746572732030783046303020746f20307830464646),
  (1, 0x23),
  (0, 0x0),
  (33, 0x307830463030090941554d0923205449424554414e2053594c4c41424c45204f4d),
  (38, 0x3078304630380909202f2f200923205449424554414e204d41524b20534252554c2053484144),
  (40, 0x3078304630390909202a200923205449424554414e204d41524b2042534b555220594947204d474f),
  (44, 0x30783046304209092d0923205449424554414e204d41524b20494e54455253594c4c41424943205453484547),
  (48, 0x3078304630430909202f200923205449424554414e204d41524b2044454c494d49544552205453484547204253544152),
  (31, 0x3078304630440909202f200923205449424554414e204d41524b2053484144),
  (37, 0x3078304630450909202f2f200923205449424554414e204d41524b204e5949532053484144),
  (38, 0x3078304630460909202d2f200923205449424554414e204d41524b2054534845472053484144),
  (0, 0x0),
  (43, 0x3078304631300909202b2f200923205449424554414e204d41524b204e5949532054534845472053484144),
  (48, 0x307830463131090920582f200923205449424554414e204d41524b2052494e204348454e205350554e47532053484144),
  (44, 0x3078304631320909202f58582f200923205449424554414e204d41524b2052475941204752414d2053484144),
  (58, 0x3078304631330909202f582f200923205449424554414e204d41524b204341524554202d445a5544205254414753204d45204c4f4e472043414e),
  (36, 0x30783046313409092c200923205449424554414e204d41524b2047544552205453484547),
  (0, 0x0),
  (30, 0x3078304632300909300923205449424554414e204449474954205a45524f),
  (29, 0x3078304632310909310923205449424554414e204449474954204f4e45),
  (29, 0x3078304632320909320923205449424554414e2044494749542054574f),
  (31, 0x3078304632330909330923205449424554414e204449474954205448524545),
  (30, 0x3078304632340909340923205449424554414e20444947495420464f5552),
  (30, 0x3078304632350909350923205449424554414e2044494749542046495645)]

/-- Lines 2619-2718 of table/legacy/unidecode.tbl. -/
def legacy_unidecode_28 : List (Nat × Nat) := [
  (29, 0x3078304632360909360923205449424554414e20444947495420534958),
  (31, 0x3078304632370909370923205449424554414e20444947495420534556454e),
  (31, 0x3078304632380909380923205449424554414e204449474954204549474854),
  (30, 0x3078304632390909390923205449424554414e204449474954204e494e45),
  (35, 0x30783046324109092e350923205449424554414e2044494749542048414c46204f4e45),
  (36, 0x3078304632420909312e350923205449424554414e2044494749542048414c462054574f),
  (38, 0x3078304632430909322e350923205449424554414e2044494749542048414c46205448524545),
  (37, 0x3078304632440909332e350923205449424554414e2044494749542048414c4620464f5552),
  (37, 0x3078304632450909342e350923205449424554414e2044494749542048414c462046495645),
  (36, 0x3078304632460909352e350923205449424554414e2044494749542048414c4620534958),
  (0, 0x0),
  (38, 0x3078304633300909362e350923205449424554414e2044494749542048414c4620534556454e),
  (38, 0x3078304633310909372e350923205449424554414e2044494749542048414c46204549474854),
  (37, 0x3078304633320909382e350923205449424554414e2044494749542048414c46204e494e45),
  (37, 0x30783046333309092d2e350923205449424554414e2044494749542048414c46205a45524f),
  (36, 0x30783046333409092b0923205449424554414e204d41524b204253445553205254414753),
  (43, 0x30783046333509092a0923205449424554414e204d41524b204e47415320425a554e47204e5949205a4c41),
  (55, 0x30783046333609095e0923205449424554414e204d41524b204341524554202d445a554420525441475320425a4849204d49472043414e),
  (46, 0x30783046333709095f0923205449424554414e204d41524b204e47415320425a554e472053474f52205254414753),
  (34, 0x30783046333909097e0923205449424554414e204d41524b20545341202d50485255),
  (39, 0x30783046334209095d0923205449424554414e204d41524b204755472052544147532047594153),
  (40, 0x30783046334309095b5b0923205449424554414e204d41524b20414e47204b48414e472047594f4e),
  (40, 0x30783046334409095d5d0923205449424554414e204d41524b20414e47204b48414e472047594153),
  (0, 0x0),
  (29, 0x30783046343009096b0923205449424554414e204c4554544552204b41),
  (31, 0x30783046343109096b680923205449424554414e204c4554544552204b4841),
  (29, 0x3078304634320909670923205449424554414e204c4554544552204741),
  (31, 0x307830463433090967680923205449424554414e204c455454455220474841),
  (31, 0x30783046343409096e670923205449424554414e204c4554544552204e4741),
  (29, 0x3078304634350909630923205449424554414e204c4554544552204341),
  (31, 0x307830463436090963680923205449424554414e204c455454455220434841),
  (29, 0x30783046343709096a0923205449424554414e204c4554544552204a41),
  (31, 0x30783046343909096e790923205449424554414e204c4554544552204e5941),
  (31, 0x307830463441090974740923205449424554414e204c455454455220545441),
  (33, 0x30783046344209097474680923205449424554414e204c45545445522054544841),
  (31, 0x307830463443090964640923205449424554414e204c455454455220444441),
  (33, 0x30783046344409096464680923205449424554414e204c45545445522044444841),
  (31, 0x30783046344509096e6e0923205449424554414e204c4554544552204e4e41),
  (29, 0x3078304634460909740923205449424554414e204c4554544552205441),
  (0, 0x0),
  (31, 0x307830463530090974680923205449424554414e204c455454455220544841),
  (29, 0x3078304635310909640923205449424554414e204c4554544552204441),
  (31, 0x307830463532090964680923205449424554414e204c455454455220444841),
  (29, 0x30783046353309096e0923205449424554414e204c4554544552204e41),
  (29, 0x3078304635340909700923205449424554414e204c4554544552205041),
  (31, 0x307830463535090970680923205449424554414e204c455454455220504841),
  (29, 0x3078304635360909620923205449424554414e204c4554544552204241),
  (31, 0x307830463537090962680923205449424554414e204c455454455220424841),
  (29, 0x30783046353809096d0923205449424554414e204c4554544552204d41),
  (31, 0x307830463539090974730923205449424554414e204c455454455220545341),
  (33, 0x30783046354109097473680923205449424554414e204c45545445522054534841),
  (31, 0x3078304635420909647a0923205449424554414e204c455454455220445a41),
  (33, 0x3078304635430909647a680923205449424554414e204c455454455220445a4841),
  (29, 0x3078304635440909770923205449424554414e204c4554544552205741),
  (31, 0x30783046354509097a680923205449424554414e204c4554544552205a4841),
  (29, 0x30783046354609097a0923205449424554414e204c4554544552205a41),
  (0, 0x0),
  (31, 0x30783046363009092227220923205449424554414e204c4554544552202d41),
  (29, 0x3078304636310909790923205449424554414e204c4554544552205941),
  (29, 0x3078304636320909720923205449424554414e204c4554544552205241),
  (29, 0x30783046363309096c0923205449424554414e204c4554544552204c41),
  (31, 0x307830463634090973680923205449424554414e204c455454455220534841),
  (32, 0x30783046363509097373680923205449424554414e204c455454455220535341),
  (29, 0x3078304636360909730923205449424554414e204c4554544552205341),
  (29, 0x3078304636370909680923205449424554414e204c4554544552204841),
  (28, 0x3078304636380909610923205449424554414e204c45545445522041),
  (33, 0x30783046363909096b73730923205449424554414e204c4554544552204b535341),
  (40, 0x3078304636410909720923205449424554414e204c45545445522046495845442d464f524d205241),
  (34, 0x307830463731090961610923205449424554414e20564f57454c205349474e204141),
  (32, 0x3078304637320909690923205449424554414e20564f57454c205349474e2049),
  (34, 0x307830463733090969690923205449424554414e20564f57454c205349474e204949),
  (32, 0x3078304637340909750923205449424554414e20564f57454c205349474e2055),
  (34, 0x307830463735090975750923205449424554414e20564f57454c205349474e205555),
  (40, 0x3078304637360909520923205449424554414e20564f57454c205349474e20564f43414c49432052),
  (42, 0x307830463737090952520923205449424554414e20564f57454c205349474e20564f43414c4943205252),
  (40, 0x30783046373809094c0923205449424554414e20564f57454c205349474e20564f43414c4943204c),
  (42, 0x30783046373909094c4c0923205449424554414e20564f57454c205349474e20564f43414c4943204c4c),
  (32, 0x3078304637410909650923205449424554414e20564f57454c205349474e2045),
  (34, 0x307830463742090965650923205449424554414e20564f57454c205349474e204545),
  (32, 0x30783046374309096f0923205449424554414e20564f57454c205349474e204f),
  (34, 0x30783046374409096f6f0923205449424554414e20564f57454c205349474e204f4f),
  (39, 0x30783046374509094d0923205449424554414e205349474e20524a4553205355204e474120524f),
  (34, 0x3078304637460909480923205449424554414e205349474e20524e414d2042434144),
  (0, 0x0),
  (41, 0x3078304638300909690923205449424554414e20564f57454c205349474e2052455645525345442049),
  (43, 0x307830463831090969690923205449424554414e20564f57454c205349474e205245564552534544204949),
  (0, 0x0),
  (39, 0x30783046393009096b0923205449424554414e205355424a4f494e4544204c4554544552204b41),
  (41, 0x30783046393109096b680923205449424554414e205355424a4f494e4544204c4554544552204b4841),
  (39, 0x3078304639320909670923205449424554414e205355424a4f494e4544204c4554544552204741),
  (41, 0x307830463933090967680923205449424554414e205355424a4f494e4544204c455454455220474841),
  (41, 0x30783046393409096e670923205449424554414e205355424a4f494e4544204c4554544552204e4741),
  (39, 0x3078304639350909630923205449424554414e205355424a4f494e4544204c4554544552204341),
  (41, 0x307830463936090963680923205449424554414e205355424a4f494e4544204c455454455220434841),
  (39, 0x30783046393709096a0923205449424554414e205355424a4f494e4544204c4554544552204a41),
  (41, 0x30783046393909096e790923205449424554414e205355424a4f494e4544204c4554544552204e5941),
  (41, 0x307830463941090974740923205449424554414e205355424a4f494e4544204c455454455220545441),
  (43, 0x30783046394209097474680923205449424554414e205355424a4f494e4544204c45545445522054544841),
  (41, 0x307830463943090964640923205449424554414e205355424a4f494e4544204c455454455220444441),
  (43, 0x30783046394409096464680923205449424554414e205355424a4f494e4544204c45545445522044444841)]

/-- Lines 2719-2818 of table/legacy/unidecode.tbl. -/
def legacy_unidecode_29 : List (Nat × Nat) := [
  (41, 0x30783046394509096e6e0923205449424554414e205355424a4f494e4544204c4554544552204e4e41),
  (39, 0x3078304639460909740923205449424554414e205355424a4f494e4544204c4554544552205441),
  (0, 0x0),
  (41, 0x307830464130090974680923205449424554414e205355424a4f494e4544204c455454455220544841),
  (39, 0x3078304641310909640923205449424554414e205355424a4f494e4544204c4554544552204441),
  (41, 0x307830464132090964680923205449424554414e205355424a4f494e4544204c455454455220444841),
  (39, 0x30783046413309096e0923205449424554414e205355424a4f494e4544204c4554544552204e41),
  (39, 0x3078304641340909700923205449424554414e205355424a4f494e4544204c4554544552205041),
  (41, 0x307830464135090970680923205449424554414e205355424a4f494e4544204c455454455220504841),
  (39, 0x3078304641360909620923205449424554414e205355424a4f494e4544204c4554544552204241),
  (41, 0x307830464137090962680923205449424554414e205355424a4f494e4544204c455454455220424841),
  (39, 0x30783046413809096d0923205449424554414e205355424a4f494e4544204c4554544552204d41),
  (41, 0x307830464139090974730923205449424554414e205355424a4f494e4544204c455454455220545341),
  (43, 0x30783046414109097473680923205449424554414e205355424a4f494e4544204c45545445522054534841),
  (41, 0x3078304641420909647a0923205449424554414e205355424a4f494e4544204c455454455220445a41),
  (43, 0x3078304641430909647a680923205449424554414e205355424a4f494e4544204c455454455220445a4841),
  (39, 0x3078304641440909770923205449424554414e205355424a4f494e4544204c4554544552205741),
  (41, 0x30783046414509097a680923205449424554414e205355424a4f494e4544204c4554544552205a4841),
  (39, 0x30783046414609097a0923205449424554414e205355424a4f494e4544204c4554544552205a41),
  (0, 0x0),
  (41, 0x30783046423009092227220923205449424554414e205355424a4f494e4544204c4554544552202d41),
  (39, 0x3078304642310909790923205449424554414e205355424a4f494e4544204c4554544552205941),
  (39, 0x3078304642320909720923205449424554414e205355424a4f494e4544204c4554544552205241),
  (39, 0x30783046423309096c0923205449424554414e205355424a4f494e4544204c4554544552204c41),
  (41, 0x307830464234090973680923205449424554414e205355424a4f494e4544204c455454455220534841),
  (41, 0x307830464235090973730923205449424554414e205355424a4f494e4544204c455454455220535341),
  (39, 0x3078304642360909730923205449424554414e205355424a4f494e4544204c4554544552205341),
  (39, 0x3078304642370909680923205449424554414e205355424a4f494e4544204c4554544552204841),
  (38, 0x3078304642380909610923205449424554414e205355424a4f494e4544204c45545445522041),
  (43, 0x30783046423909096b73730923205449424554414e205355424a4f494e4544204c4554544552204b535341),
  (50, 0x3078304642410909770923205449424554414e205355424a4f494e4544204c45545445522046495845442d464f524d205741),
  (50, 0x3078304642420909790923205449424554414e205355424a4f494e4544204c45545445522046495845442d464f524d205941),
  (50, 0x3078304642430909720923205449424554414e205355424a4f494e4544204c45545445522046495845442d464f524d205241),
  (29, 0x3078304642450909580923205449424554414e204b55205255204b4841),
  (46, 0x3078304642460909203a583a200923205449424554414e204b55205255204b484120425a4849204d49472043414e),
  (0, 0x0),
  (52, 0x3078304643300909202f4f2f200923205449424554414e2043414e54494c4c4154494f4e205349474e2048454156592042454154),
  (52, 0x3078304643310909202f6f2f200923205449424554414e2043414e54494c4c4154494f4e205349474e204c494748542042454154),
  (51, 0x3078304643320909205c6f5c200923205449424554414e2043414e54494c4c4154494f4e205349474e2043414e472054452d55),
  (52, 0x307830464333090920284f29200923205449424554414e2043414e54494c4c4154494f4e205349474e2053425542202d4348414c),
  (0, 0x0),
  (1, 0x23),
  (29, 0x2320436861726163746572732030783130303020746f20307831304646),
  (1, 0x23),
  (0, 0x0),
  (29, 0x30783130303009096b0923204d59414e4d4152204c4554544552204b41),
  (31, 0x30783130303109096b680923204d59414e4d4152204c4554544552204b4841),
  (29, 0x3078313030320909670923204d59414e4d4152204c4554544552204741),
  (31, 0x307831303033090967680923204d59414e4d4152204c455454455220474841),
  (31, 0x30783130303409096e670923204d59414e4d4152204c4554544552204e4741),
  (29, 0x3078313030350909630923204d59414e4d4152204c4554544552204341),
  (31, 0x307831303036090963680923204d59414e4d4152204c455454455220434841),
  (29, 0x30783130303709096a0923204d59414e4d4152204c4554544552204a41),
  (31, 0x30783130303809096a680923204d59414e4d4152204c4554544552204a4841),
  (31, 0x30783130303909096e790923204d59414e4d4152204c4554544552204e5941),
  (33, 0x30783130304109096e6e790923204d59414e4d4152204c4554544552204e4e5941),
  (31, 0x307831303042090974740923204d59414e4d4152204c455454455220545441),
  (33, 0x30783130304309097474680923204d59414e4d4152204c45545445522054544841),
  (31, 0x307831303044090964640923204d59414e4d4152204c455454455220444441),
  (33, 0x30783130304509096464680923204d59414e4d4152204c45545445522044444841),
  (31, 0x30783130304609096e6e0923204d59414e4d4152204c4554544552204e4e41),
  (0, 0x0),
  (30, 0x307831303130090974740923204d59414e4d4152204c4554544552205441),
  (31, 0x307831303131090974680923204d59414e4d4152204c455454455220544841),
  (29, 0x3078313031320909640923204d59414e4d4152204c4554544552204441),
  (31, 0x307831303133090964680923204d59414e4d4152204c455454455220444841),
  (29, 0x30783130313409096e0923204d59414e4d4152204c4554544552204e41),
  (29, 0x3078313031350909700923204d59414e4d4152204c4554544552205041),
  (31, 0x307831303136090970680923204d59414e4d4152204c455454455220504841),
  (29, 0x3078313031370909620923204d59414e4d4152204c4554544552204241),
  (31, 0x307831303138090962680923204d59414e4d4152204c455454455220424841),
  (29, 0x30783130313909096d0923204d59414e4d4152204c4554544552204d41),
  (29, 0x3078313031410909790923204d59414e4d4152204c4554544552205941),
  (29, 0x3078313031420909720923204d59414e4d4152204c4554544552205241),
  (29, 0x30783130314309096c0923204d59414e4d4152204c4554544552204c41),
  (29, 0x3078313031440909770923204d59414e4d4152204c4554544552205741),
  (29, 0x3078313031450909730923204d59414e4d4152204c4554544552205341),
  (29, 0x3078313031460909680923204d59414e4d4152204c4554544552204841),
  (0, 0x0),
  (31, 0x30783130323009096c6c0923204d59414e4d4152204c4554544552204c4c41),
  (28, 0x3078313032310909610923204d59414e4d4152204c45545445522041),
  (28, 0x3078313032330909690923204d59414e4d4152204c45545445522049),
  (30, 0x307831303234090969690923204d59414e4d4152204c4554544552204949),
  (28, 0x3078313032350909750923204d59414e4d4152204c45545445522055),
  (30, 0x307831303236090975750923204d59414e4d4152204c4554544552205555),
  (28, 0x3078313032370909650923204d59414e4d4152204c45545445522045),
  (28, 0x30783130323909096f0923204d59414e4d4152204c4554544552204f),
  (30, 0x307831303241090961750923204d59414e4d4152204c4554544552204155),
  (34, 0x307831303243090961610923204d59414e4d415220564f57454c205349474e204141),
  (32, 0x3078313032440909690923204d59414e4d415220564f57454c205349474e2049),
  (34, 0x307831303245090969690923204d59414e4d415220564f57454c205349474e204949),
  (32, 0x3078313032460909750923204d59414e4d415220564f57454c205349474e2055),
  (0, 0x0),
  (34, 0x307831303330090975750923204d59414e4d415220564f57454c205349474e205555),
  (32, 0x3078313033310909650923204d59414e4d415220564f57454c205349474e2045),
  (34, 0x307831303332090961690923204d59414e4d415220564f57454c205349474e204149),
  (33, 0x30783130333609094e0923204d59414e4d4152205349474e20414e555356415241),
  (36, 0x30783130333709092227220923204d59414e4d4152205349474e20444f542042454c4f57),
  (32, 0x30783130333809093a0923204d59414e4d4152205349474e2056495341524741),
  (0, 0x0)]

/-- Lines 2819-2918 of table/legacy/unidecode.tbl. -/
def legacy_unidecode_30 : List (Nat × Nat) := [
  (30, 0x3078313034300909300923204d59414e4d4152204449474954205a45524f),
  (29, 0x3078313034310909310923204d59414e4d4152204449474954204f4e45),
  (29, 0x3078313034320909320923204d59414e4d41522044494749542054574f),
  (31, 0x3078313034330909330923204d59414e4d4152204449474954205448524545),
  (30, 0x3078313034340909340923204d59414e4d415220444947495420464f5552),
  (30, 0x3078313034350909350923204d59414e4d41522044494749542046495645),
  (29, 0x3078313034360909360923204d59414e4d415220444947495420534958),
  (31, 0x3078313034370909370923204d59414e4d415220444947495420534556454e),
  (31, 0x3078313034380909380923204d59414e4d4152204449474954204549474854),
  (30, 0x3078313034390909390923204d59414e4d4152204449474954204e494e45),
  (41, 0x3078313034410909202f200923204d59414e4d4152205349474e204c4954544c452053454354494f4e),
  (35, 0x3078313034420909202f2f200923204d59414e4d4152205349474e2053454354494f4e),
  (36, 0x30783130344309096e2a0923204d59414e4d41522053594d424f4c204c4f434154495645),
  (37, 0x3078313034440909722a0923204d59414e4d41522053594d424f4c20434f4d504c45544544),
  (42, 0x30783130344509096c2a0923204d59414e4d41522053594d424f4c2041464f52454d454e54494f4e4544),
  (36, 0x3078313034460909652a0923204d59414e4d41522053594d424f4c2047454e4954495645),
  (0, 0x0),
  (31, 0x307831303530090973680923204d59414e4d4152204c455454455220534841),
  (31, 0x307831303531090973730923204d59414e4d4152204c455454455220535341),
  (36, 0x3078313035320909520923204d59414e4d4152204c455454455220564f43414c49432052),
  (38, 0x307831303533090952520923204d59414e4d4152204c455454455220564f43414c4943205252),
  (36, 0x30783130353409094c0923204d59414e4d4152204c455454455220564f43414c4943204c),
  (38, 0x30783130353509094c4c0923204d59414e4d4152204c455454455220564f43414c4943204c4c),
  (40, 0x3078313035360909520923204d59414e4d415220564f57454c205349474e20564f43414c49432052),
  (42, 0x307831303537090952520923204d59414e4d415220564f57454c205349474e20564f43414c4943205252),
  (40, 0x30783130353809094c0923204d59414e4d415220564f57454c205349474e20564f43414c4943204c),
  (42, 0x30783130353909094c4c0923204d59414e4d415220564f57454c205349474e20564f43414c4943204c4c),
  (0, 0x0),
  (38, 0x30783130413009094109232047454f524749414e204341504954414c204c455454455220414e),
  (39, 0x30783130413109094209232047454f524749414e204341504954414c204c45545445522042414e),
  (39, 0x30783130413209094709232047454f524749414e204341504954414c204c45545445522047414e),
  (39, 0x30783130413309094409232047454f524749414e204341504954414c204c455454455220444f4e),
  (38, 0x30783130413409094509232047454f524749414e204341504954414c204c455454455220454e),
  (39, 0x30783130413509095609232047454f524749414e204341504954414c204c45545445522056494e),
  (39, 0x30783130413609095a09232047454f524749414e204341504954414c204c4554544552205a454e),
  (40, 0x3078313041370909546009232047454f524749414e204341504954414c204c45545445522054414e),
  (38, 0x30783130413809094909232047454f524749414e204341504954414c204c455454455220494e),
  (39, 0x30783130413909094b09232047454f524749414e204341504954414c204c4554544552204b414e),
  (39, 0x30783130414109094c09232047454f524749414e204341504954414c204c4554544552204c4153),
  (39, 0x30783130414209094d09232047454f524749414e204341504954414c204c4554544552204d414e),
  (39, 0x30783130414309094e09232047454f524749414e204341504954414c204c4554544552204e4152),
  (38, 0x30783130414409094f09232047454f524749414e204341504954414c204c4554544552204f4e),
  (39, 0x30783130414509095009232047454f524749414e204341504954414c204c455454455220504152),
  (41, 0x30783130414609095a6809232047454f524749414e204341504954414c204c4554544552205a484152),
  (0, 0x0),
  (39, 0x30783130423009095209232047454f524749414e204341504954414c204c455454455220524145),
  (39, 0x30783130423109095309232047454f524749414e204341504954414c204c45545445522053414e),
  (39, 0x30783130423209095409232047454f524749414e204341504954414c204c455454455220544152),
  (38, 0x30783130423309095509232047454f524749414e204341504954414c204c455454455220554e),
  (41, 0x3078313042340909506009232047454f524749414e204341504954414c204c45545445522050484152),
  (41, 0x30783130423509094b6009232047454f524749414e204341504954414c204c4554544552204b484152),
  (43, 0x30783130423609092247272209232047454f524749414e204341504954414c204c4554544552204748414e),
  (39, 0x30783130423709095109232047454f524749414e204341504954414c204c455454455220514152),
  (41, 0x3078313042380909536809232047454f524749414e204341504954414c204c4554544552205348494e),
  (42, 0x307831304239090943686009232047454f524749414e204341504954414c204c4554544552204348494e),
  (40, 0x3078313042410909436009232047454f524749414e204341504954414c204c45545445522043414e),
  (42, 0x3078313042420909225a272209232047454f524749414e204341504954414c204c4554544552204a494c),
  (39, 0x30783130424309094309232047454f524749414e204341504954414c204c45545445522043494c),
  (41, 0x3078313042440909436809232047454f524749414e204341504954414c204c45545445522043484152),
  (39, 0x30783130424509095809232047454f524749414e204341504954414c204c45545445522058414e),
  (40, 0x30783130424609094a09232047454f524749414e204341504954414c204c4554544552204a48414e),
  (0, 0x0),
  (39, 0x30783130433009094809232047454f524749414e204341504954414c204c455454455220484145),
  (38, 0x30783130433109094509232047454f524749414e204341504954414c204c4554544552204845),
  (39, 0x30783130433209095909232047454f524749414e204341504954414c204c455454455220484945),
  (38, 0x30783130433309095709232047454f524749414e204341504954414c204c4554544552205745),
  (40, 0x3078313043340909586809232047454f524749414e204341504954414c204c455454455220484152),
  (40, 0x30783130433509094f4509232047454f524749414e204341504954414c204c455454455220484f45),
  (0, 0x0),
  (30, 0x30783130443009096109232047454f524749414e204c455454455220414e),
  (31, 0x30783130443109096209232047454f524749414e204c45545445522042414e),
  (31, 0x30783130443209096709232047454f524749414e204c45545445522047414e),
  (31, 0x30783130443309096409232047454f524749414e204c455454455220444f4e),
  (30, 0x30783130443409096509232047454f524749414e204c455454455220454e),
  (31, 0x30783130443509097609232047454f524749414e204c45545445522056494e),
  (31, 0x30783130443609097a09232047454f524749414e204c4554544552205a454e),
  (32, 0x3078313044370909746009232047454f524749414e204c45545445522054414e),
  (30, 0x30783130443809096909232047454f524749414e204c455454455220494e),
  (31, 0x30783130443909096b09232047454f524749414e204c4554544552204b414e),
  (31, 0x30783130444109096c09232047454f524749414e204c4554544552204c4153),
  (31, 0x30783130444209096d09232047454f524749414e204c4554544552204d414e),
  (31, 0x30783130444309096e09232047454f524749414e204c4554544552204e4152),
  (30, 0x30783130444409096f09232047454f524749414e204c4554544552204f4e),
  (31, 0x30783130444509097009232047454f524749414e204c455454455220504152),
  (33, 0x30783130444609097a6809232047454f524749414e204c4554544552205a484152),
  (0, 0x0),
  (31, 0x30783130453009097209232047454f524749414e204c455454455220524145),
  (31, 0x30783130453109097309232047454f524749414e204c45545445522053414e),
  (31, 0x30783130453209097409232047454f524749414e204c455454455220544152),
  (30, 0x30783130453309097509232047454f524749414e204c455454455220554e),
  (33, 0x3078313045340909706009232047454f524749414e204c45545445522050484152),
  (33, 0x30783130453509096b6009232047454f524749414e204c4554544552204b484152),
  (35, 0x30783130453609092267272209232047454f524749414e204c4554544552204748414e),
  (31, 0x30783130453709097109232047454f524749414e204c455454455220514152),
  (33, 0x3078313045380909736809232047454f524749414e204c4554544552205348494e),
  (34, 0x307831304539090963686009232047454f524749414e204c4554544552204348494e),
  (32, 0x3078313045410909636009232047454f524749414e204c45545445522043414e),
  (34, 0x3078313045420909227a272209232047454f524749414e204c4554544552204a494c),
  (31, 0x30783130454309096309232047454f524749414e204c45545445522043494c),
  (33, 0x3078313045440909636809232047454f524749414e204c45545445522043484152)]

/-- Lines 2919-3018 of table/legacy/unidecode.tbl. -/
def legacy_unidecode_31 : List (Nat × Nat) := [
  (31, 0x30783130454509097809232047454f524749414e204c45545445522058414e),
  (32, 0x30783130454609096a09232047454f524749414e204c4554544552204a48414e),
  (0, 0x0),
  (31, 0x30783130463009096809232047454f524749414e204c455454455220484145),
  (30, 0x30783130463109096509232047454f524749414e204c4554544552204845),
  (31, 0x30783130463209097909232047454f524749414e204c455454455220484945),
  (30, 0x30783130463309097709232047454f524749414e204c4554544552205745),
  (32, 0x3078313046340909786809232047454f524749414e204c455454455220484152),
  (32, 0x30783130463509096f6509232047454f524749414e204c455454455220484f45),
  (30, 0x30783130463609096609232047454f524749414e204c4554544552204649),
  (43, 0x3078313046420909202f2f2009232047454f524749414e2050415241475241504820534550415241544f52),
  (0, 0x0),
  (1, 0x23),
  (29, 0x2320436861726163746572732030783131303020746f20307831314646),
  (1, 0x23),
  (0, 0x0),
  (34, 0x30783131303009096709232048414e47554c2043484f53454f4e47204b4959454f4b),
  (40, 0x3078313130310909676709232048414e47554c2043484f53454f4e47205353414e474b4959454f4b),
  (33, 0x30783131303209096e09232048414e47554c2043484f53454f4e47204e4945554e),
  (34, 0x30783131303309096409232048414e47554c2043484f53454f4e472054494b455554),
  (40, 0x3078313130340909646409232048414e47554c2043484f53454f4e47205353414e4754494b455554),
  (33, 0x30783131303509097209232048414e47554c2043484f53454f4e4720524945554c),
  (33, 0x30783131303609096d09232048414e47554c2043484f53454f4e47204d4945554d),
  (33, 0x30783131303709096209232048414e47554c2043484f53454f4e47205049455550),
  (39, 0x3078313130380909626209232048414e47554c2043484f53454f4e47205353414e475049455550),
  (32, 0x30783131303909097309232048414e47554c2043484f53454f4e472053494f53),
  (38, 0x3078313130410909737309232048414e47554c2043484f53454f4e47205353414e4753494f53),
  (33, 0x30783131304309096a09232048414e47554c2043484f53454f4e47204349455543),
  (39, 0x30783131304409096a6a09232048414e47554c2043484f53454f4e47205353414e474349455543),
  (35, 0x30783131304509096309232048414e47554c2043484f53454f4e472043484945554348),
  (35, 0x30783131304609096b09232048414e47554c2043484f53454f4e47204b484945554b48),
  (0, 0x0),
  (35, 0x30783131313009097409232048414e47554c2043484f53454f4e472054484945555448),
  (35, 0x30783131313109097009232048414e47554c2043484f53454f4e472050484945555048),
  (33, 0x30783131313209096809232048414e47554c2043484f53454f4e47204849455548),
  (41, 0x30783131313309096e6709232048414e47554c2043484f53454f4e47204e4945554e2d4b4959454f4b),
  (39, 0x30783131313409096e6e09232048414e47554c2043484f53454f4e47205353414e474e4945554e),
  (41, 0x30783131313509096e6409232048414e47554c2043484f53454f4e47204e4945554e2d54494b455554),
  (40, 0x30783131313609096e6209232048414e47554c2043484f53454f4e47204e4945554e2d5049455550),
  (42, 0x3078313131370909646709232048414e47554c2043484f53454f4e472054494b4555542d4b4959454f4b),
  (40, 0x3078313131380909726e09232048414e47554c2043484f53454f4e4720524945554c2d4e4945554e),
  (39, 0x3078313131390909727209232048414e47554c2043484f53454f4e47205353414e47524945554c),
  (40, 0x3078313131410909726809232048414e47554c2043484f53454f4e4720524945554c2d4849455548),
  (42, 0x3078313131420909724e09232048414e47554c2043484f53454f4e47204b415059454f554e524945554c),
  (40, 0x30783131314309096d6209232048414e47554c2043484f53454f4e47204d4945554d2d5049455550),
  (42, 0x30783131314409096d4e09232048414e47554c2043484f53454f4e47204b415059454f554e4d4945554d),
  (41, 0x3078313131450909626709232048414e47554c2043484f53454f4e472050494555502d4b4959454f4b),
  (40, 0x3078313131460909626e09232048414e47554c2043484f53454f4e472050494555502d4e4945554e),
  (0, 0x0),
  (39, 0x3078313132310909627309232048414e47554c2043484f53454f4e472050494555502d53494f53),
  (47, 0x307831313232090962736709232048414e47554c2043484f53454f4e472050494555502d53494f532d4b4959454f4b),
  (47, 0x307831313233090962737409232048414e47554c2043484f53454f4e472050494555502d53494f532d54494b455554),
  (46, 0x307831313234090962736209232048414e47554c2043484f53454f4e472050494555502d53494f532d5049455550),
  (45, 0x307831313235090962737309232048414e47554c2043484f53454f4e472050494555502d5353414e4753494f53),
  (46, 0x307831313236090962736a09232048414e47554c2043484f53454f4e472050494555502d53494f532d4349455543),
  (40, 0x3078313132370909626a09232048414e47554c2043484f53454f4e472050494555502d4349455543),
  (42, 0x3078313132380909626309232048414e47554c2043484f53454f4e472050494555502d43484945554348),
  (42, 0x3078313132390909627409232048414e47554c2043484f53454f4e472050494555502d54484945555448),
  (42, 0x3078313132410909627009232048414e47554c2043484f53454f4e472050494555502d50484945555048),
  (42, 0x3078313132420909624e09232048414e47554c2043484f53454f4e47204b415059454f554e5049455550),
  (48, 0x307831313243090962624e09232048414e47554c2043484f53454f4e47204b415059454f554e5353414e475049455550),
  (40, 0x3078313132440909736709232048414e47554c2043484f53454f4e472053494f532d4b4959454f4b),
  (39, 0x3078313132450909736e09232048414e47554c2043484f53454f4e472053494f532d4e4945554e),
  (40, 0x3078313132460909736409232048414e47554c2043484f53454f4e472053494f532d54494b455554),
  (0, 0x0),
  (39, 0x3078313133300909737209232048414e47554c2043484f53454f4e472053494f532d524945554c),
  (39, 0x3078313133310909736d09232048414e47554c2043484f53454f4e472053494f532d4d4945554d),
  (39, 0x3078313133320909736209232048414e47554c2043484f53454f4e472053494f532d5049455550),
  (47, 0x307831313333090973626709232048414e47554c2043484f53454f4e472053494f532d50494555502d4b4959454f4b),
  (44, 0x307831313334090973737309232048414e47554c2043484f53454f4e472053494f532d5353414e4753494f53),
  (38, 0x30783131333509097309232048414e47554c2043484f53454f4e472053494f532d4945554e47),
  (39, 0x3078313133360909736a09232048414e47554c2043484f53454f4e472053494f532d4349455543),
  (41, 0x3078313133370909736309232048414e47554c2043484f53454f4e472053494f532d43484945554348),
  (41, 0x3078313133380909736b09232048414e47554c2043484f53454f4e472053494f532d4b484945554b48),
  (41, 0x3078313133390909737409232048414e47554c2043484f53454f4e472053494f532d54484945555448),
  (41, 0x3078313133410909737009232048414e47554c2043484f53454f4e472053494f532d50484945555048),
  (39, 0x3078313133420909736809232048414e47554c2043484f53454f4e472053494f532d4849455548),
  (0, 0x0),
  (35, 0x30783131343009095a09232048414e47554c2043484f53454f4e472050414e53494f53),
  (40, 0x30783131343109096709232048414e47554c2043484f53454f4e47204945554e472d4b4959454f4b),
  (40, 0x30783131343209096409232048414e47554c2043484f53454f4e47204945554e472d54494b455554),
  (39, 0x30783131343309096d09232048414e47554c2043484f53454f4e47204945554e472d4d4945554d),
  (39, 0x30783131343409096209232048414e47554c2043484f53454f4e47204945554e472d5049455550),
  (38, 0x30783131343509097309232048414e47554c2043484f53454f4e47204945554e472d53494f53),
  (41, 0x30783131343609095a09232048414e47554c2043484f53454f4e47204945554e472d50414e53494f53),
  (39, 0x30783131343809096a09232048414e47554c2043484f53454f4e47204945554e472d4349455543),
  (41, 0x30783131343909096309232048414e47554c2043484f53454f4e47204945554e472d43484945554348),
  (41, 0x30783131344109097409232048414e47554c2043484f53454f4e47204945554e472d54484945555448),
  (41, 0x30783131344209097009232048414e47554c2043484f53454f4e47204945554e472d50484945555048),
  (36, 0x30783131344309094e09232048414e47554c2043484f53454f4e47205945534945554e47),
  (39, 0x30783131344409096a09232048414e47554c2043484f53454f4e472043494555432d4945554e47),
  (0, 0x0),
  (44, 0x3078313135320909636b09232048414e47554c2043484f53454f4e4720434849455543482d4b484945554b48),
  (42, 0x3078313135330909636809232048414e47554c2043484f53454f4e4720434849455543482d4849455548),
  (42, 0x3078313135360909706209232048414e47554c2043484f53454f4e4720504849455550482d5049455550),
  (44, 0x3078313135370909704e09232048414e47554c2043484f53454f4e47204b415059454f554e50484945555048),
  (39, 0x3078313135380909686809232048414e47554c2043484f53454f4e47205353414e474849455548),
  (39, 0x30783131353909095109232048414e47554c2043484f53454f4e472059454f52494e4849455548),
  (0, 0x0),
  (30, 0x30783131363109096109232048414e47554c204a554e4753454f4e472041)]

/-- Lines 3019-3118 of table/legacy/unidecode.tbl. -/
def legacy_unidecode_32 : List (Nat × Nat) := [
  (32, 0x3078313136320909616509232048414e47554c204a554e4753454f4e47204145),
  (32, 0x3078313136330909796109232048414e47554c204a554e4753454f4e47205941),
  (34, 0x307831313634090979616509232048414e47554c204a554e4753454f4e4720594145),
  (32, 0x3078313136350909656f09232048414e47554c204a554e4753454f4e4720454f),
  (30, 0x30783131363609096509232048414e47554c204a554e4753454f4e472045),
  (34, 0x307831313637090979656f09232048414e47554c204a554e4753454f4e472059454f),
  (32, 0x3078313136380909796509232048414e47554c204a554e4753454f4e47205945),
  (30, 0x30783131363909096f09232048414e47554c204a554e4753454f4e47204f),
  (32, 0x3078313136410909776109232048414e47554c204a554e4753454f4e47205741),
  (34, 0x307831313642090977616509232048414e47554c204a554e4753454f4e4720574145),
  (32, 0x30783131364309096f6509232048414e47554c204a554e4753454f4e47204f45),
  (32, 0x3078313136440909796f09232048414e47554c204a554e4753454f4e4720594f),
  (30, 0x30783131364509097509232048414e47554c204a554e4753454f4e472055),
  (34, 0x307831313646090977656f09232048414e47554c204a554e4753454f4e472057454f),
  (0, 0x0),
  (32, 0x3078313137300909776509232048414e47554c204a554e4753454f4e47205745),
  (32, 0x3078313137310909776909232048414e47554c204a554e4753454f4e47205749),
  (32, 0x3078313137320909797509232048414e47554c204a554e4753454f4e47205955),
  (32, 0x3078313137330909657509232048414e47554c204a554e4753454f4e47204555),
  (32, 0x3078313137340909796909232048414e47554c204a554e4753454f4e47205949),
  (30, 0x30783131373509096909232048414e47554c204a554e4753454f4e472049),
  (34, 0x3078313137360909612d6f09232048414e47554c204a554e4753454f4e4720412d4f),
  (34, 0x3078313137370909612d7509232048414e47554c204a554e4753454f4e4720412d55),
  (36, 0x307831313738090979612d6f09232048414e47554c204a554e4753454f4e472059412d4f),
  (38, 0x307831313739090979612d796f09232048414e47554c204a554e4753454f4e472059412d594f),
  (36, 0x3078313137410909656f2d6f09232048414e47554c204a554e4753454f4e4720454f2d4f),
  (36, 0x3078313137420909656f2d7509232048414e47554c204a554e4753454f4e4720454f2d55),
  (38, 0x3078313137430909656f2d657509232048414e47554c204a554e4753454f4e4720454f2d4555),
  (38, 0x307831313744090979656f2d6f09232048414e47554c204a554e4753454f4e472059454f2d4f),
  (38, 0x307831313745090979656f2d7509232048414e47554c204a554e4753454f4e472059454f2d55),
  (36, 0x30783131374609096f2d656f09232048414e47554c204a554e4753454f4e47204f2d454f),
  (0, 0x0),
  (34, 0x30783131383009096f2d6509232048414e47554c204a554e4753454f4e47204f2d45),
  (36, 0x30783131383109096f2d796509232048414e47554c204a554e4753454f4e47204f2d5945),
  (34, 0x30783131383209096f2d6f09232048414e47554c204a554e4753454f4e47204f2d4f),
  (34, 0x30783131383309096f2d7509232048414e47554c204a554e4753454f4e47204f2d55),
  (38, 0x3078313138340909796f2d796109232048414e47554c204a554e4753454f4e4720594f2d5941),
  (40, 0x3078313138350909796f2d79616509232048414e47554c204a554e4753454f4e4720594f2d594145),
  (40, 0x3078313138360909796f2d79656f09232048414e47554c204a554e4753454f4e4720594f2d59454f),
  (36, 0x3078313138370909796f2d6f09232048414e47554c204a554e4753454f4e4720594f2d4f),
  (36, 0x3078313138380909796f2d6909232048414e47554c204a554e4753454f4e4720594f2d49),
  (34, 0x3078313138390909752d6109232048414e47554c204a554e4753454f4e4720552d41),
  (36, 0x3078313138410909752d616509232048414e47554c204a554e4753454f4e4720552d4145),
  (42, 0x3078313138420909752d656f2d657509232048414e47554c204a554e4753454f4e4720552d454f2d4555),
  (36, 0x3078313138430909752d796509232048414e47554c204a554e4753454f4e4720552d5945),
  (34, 0x3078313138440909752d7509232048414e47554c204a554e4753454f4e4720552d55),
  (36, 0x307831313845090979752d6109232048414e47554c204a554e4753454f4e472059552d41),
  (38, 0x307831313846090979752d656f09232048414e47554c204a554e4753454f4e472059552d454f),
  (0, 0x0),
  (36, 0x307831313930090979752d6509232048414e47554c204a554e4753454f4e472059552d45),
  (40, 0x307831313931090979752d79656f09232048414e47554c204a554e4753454f4e472059552d59454f),
  (38, 0x307831313932090979752d796509232048414e47554c204a554e4753454f4e472059552d5945),
  (36, 0x307831313933090979752d7509232048414e47554c204a554e4753454f4e472059552d55),
  (36, 0x307831313934090979752d6909232048414e47554c204a554e4753454f4e472059552d49),
  (36, 0x307831313935090965752d7509232048414e47554c204a554e4753454f4e472045552d55),
  (38, 0x307831313936090965752d657509232048414e47554c204a554e4753454f4e472045552d4555),
  (36, 0x307831313937090979692d7509232048414e47554c204a554e4753454f4e472059492d55),
  (34, 0x3078313139380909692d6109232048414e47554c204a554e4753454f4e4720492d41),
  (36, 0x3078313139390909692d796109232048414e47554c204a554e4753454f4e4720492d5941),
  (34, 0x3078313139410909692d6f09232048414e47554c204a554e4753454f4e4720492d4f),
  (34, 0x3078313139420909692d7509232048414e47554c204a554e4753454f4e4720492d55),
  (36, 0x3078313139430909692d657509232048414e47554c204a554e4753454f4e4720492d4555),
  (38, 0x3078313139440909692d5509232048414e47554c204a554e4753454f4e4720492d4152414541),
  (34, 0x30783131394509095509232048414e47554c204a554e4753454f4e47204152414541),
  (40, 0x3078313139460909552d656f09232048414e47554c204a554e4753454f4e472041524145412d454f),
  (0, 0x0),
  (38, 0x3078313141300909552d7509232048414e47554c204a554e4753454f4e472041524145412d55),
  (38, 0x3078313141310909552d6909232048414e47554c204a554e4753454f4e472041524145412d49),
  (40, 0x3078313141320909555509232048414e47554c204a554e4753454f4e47205353414e474152414541),
  (35, 0x30783131413809096709232048414e47554c204a4f4e4753454f4e47204b4959454f4b),
  (41, 0x3078313141390909676709232048414e47554c204a4f4e4753454f4e47205353414e474b4959454f4b),
  (41, 0x3078313141410909677309232048414e47554c204a4f4e4753454f4e47204b4959454f4b2d53494f53),
  (34, 0x30783131414209096e09232048414e47554c204a4f4e4753454f4e47204e4945554e),
  (41, 0x30783131414309096e6a09232048414e47554c204a4f4e4753454f4e47204e4945554e2d4349455543),
  (41, 0x30783131414409096e6809232048414e47554c204a4f4e4753454f4e47204e4945554e2d4849455548),
  (35, 0x30783131414509096409232048414e47554c204a4f4e4753454f4e472054494b455554),
  (34, 0x30783131414609096c09232048414e47554c204a4f4e4753454f4e4720524945554c),
  (0, 0x0),
  (42, 0x30783131423009096c6709232048414e47554c204a4f4e4753454f4e4720524945554c2d4b4959454f4b),
  (41, 0x30783131423109096c6d09232048414e47554c204a4f4e4753454f4e4720524945554c2d4d4945554d),
  (41, 0x30783131423209096c6209232048414e47554c204a4f4e4753454f4e4720524945554c2d5049455550),
  (40, 0x30783131423309096c7309232048414e47554c204a4f4e4753454f4e4720524945554c2d53494f53),
  (43, 0x30783131423409096c7409232048414e47554c204a4f4e4753454f4e4720524945554c2d54484945555448),
  (43, 0x30783131423509096c7009232048414e47554c204a4f4e4753454f4e4720524945554c2d50484945555048),
  (41, 0x30783131423609096c6809232048414e47554c204a4f4e4753454f4e4720524945554c2d4849455548),
  (34, 0x30783131423709096d09232048414e47554c204a4f4e4753454f4e47204d4945554d),
  (34, 0x30783131423809096209232048414e47554c204a4f4e4753454f4e47205049455550),
  (40, 0x3078313142390909627309232048414e47554c204a4f4e4753454f4e472050494555502d53494f53),
  (33, 0x30783131424109097309232048414e47554c204a4f4e4753454f4e472053494f53),
  (39, 0x3078313142420909737309232048414e47554c204a4f4e4753454f4e47205353414e4753494f53),
  (35, 0x30783131424309096e6709232048414e47554c204a4f4e4753454f4e47204945554e47),
  (34, 0x30783131424409096a09232048414e47554c204a4f4e4753454f4e47204349455543),
  (36, 0x30783131424509096309232048414e47554c204a4f4e4753454f4e472043484945554348),
  (36, 0x30783131424609096b09232048414e47554c204a4f4e4753454f4e47204b484945554b48),
  (0, 0x0),
  (36, 0x30783131433009097409232048414e47554c204a4f4e4753454f4e472054484945555448),
  (36, 0x30783131433109097009232048414e47554c204a4f4e4753454f4e472050484945555048),
  (34, 0x30783131433209096809232048414e47554c204a4f4e4753454f4e47204849455548),
  (42, 0x3078313143330909676c09232048414e47554c204a4f4e4753454f4e47204b4959454f4b2d524945554c),
  (49, 0x307831314334090967736709232048414e47554c204a4f4e4753454f4e47204b4959454f4b2d53494f532d4b4959454f4b)]

/-- Lines 3119-3218 of table/legacy/unidecode.tbl. -/
def legacy_unidecode_33 : List (Nat × Nat) := [
  (42, 0x30783131433509096e6709232048414e47554c204a4f4e4753454f4e47204e4945554e2d4b4959454f4b),
  (42, 0x30783131433609096e6409232048414e47554c204a4f4e4753454f4e47204e4945554e2d54494b455554),
  (40, 0x30783131433709096e7309232048414e47554c204a4f4e4753454f4e47204e4945554e2d53494f53),
  (43, 0x30783131433809096e5a09232048414e47554c204a4f4e4753454f4e47204e4945554e2d50414e53494f53),
  (43, 0x30783131433909096e7409232048414e47554c204a4f4e4753454f4e47204e4945554e2d54484945555448),
  (43, 0x3078313143410909646709232048414e47554c204a4f4e4753454f4e472054494b4555542d4b4959454f4b),
  (42, 0x3078313143420909746c09232048414e47554c204a4f4e4753454f4e472054494b4555542d524945554c),
  (48, 0x30783131434309096c677309232048414e47554c204a4f4e4753454f4e4720524945554c2d4b4959454f4b2d53494f53),
  (41, 0x30783131434409096c6e09232048414e47554c204a4f4e4753454f4e4720524945554c2d4e4945554e),
  (42, 0x30783131434509096c6409232048414e47554c204a4f4e4753454f4e4720524945554c2d54494b455554),
  (49, 0x30783131434609096c746809232048414e47554c204a4f4e4753454f4e4720524945554c2d54494b4555542d4849455548),
  (0, 0x0),
  (40, 0x30783131443009096c6c09232048414e47554c204a4f4e4753454f4e47205353414e47524945554c),
  (49, 0x30783131443109096c6d6709232048414e47554c204a4f4e4753454f4e4720524945554c2d4d4945554d2d4b4959454f4b),
  (47, 0x30783131443209096c6d7309232048414e47554c204a4f4e4753454f4e4720524945554c2d4d4945554d2d53494f53),
  (47, 0x30783131443309096c627309232048414e47554c204a4f4e4753454f4e4720524945554c2d50494555502d53494f53),
  (48, 0x30783131443409096c626809232048414e47554c204a4f4e4753454f4e4720524945554c2d50494555502d4849455548),
  (50, 0x3078313144350909724e7009232048414e47554c204a4f4e4753454f4e4720524945554c2d4b415059454f554e5049455550),
  (46, 0x30783131443609096c737309232048414e47554c204a4f4e4753454f4e4720524945554c2d5353414e4753494f53),
  (43, 0x30783131443709096c5a09232048414e47554c204a4f4e4753454f4e4720524945554c2d50414e53494f53),
  (43, 0x30783131443809096c6b09232048414e47554c204a4f4e4753454f4e4720524945554c2d4b484945554b48),
  (47, 0x30783131443909096c5109232048414e47554c204a4f4e4753454f4e4720524945554c2d59454f52494e4849455548),
  (42, 0x30783131444109096d6709232048414e47554c204a4f4e4753454f4e47204d4945554d2d4b4959454f4b),
  (41, 0x30783131444209096d6c09232048414e47554c204a4f4e4753454f4e47204d4945554d2d524945554c),
  (41, 0x30783131444309096d6209232048414e47554c204a4f4e4753454f4e47204d4945554d2d5049455550),
  (40, 0x30783131444409096d7309232048414e47554c204a4f4e4753454f4e47204d4945554d2d53494f53),
  (46, 0x30783131444509096d737309232048414e47554c204a4f4e4753454f4e47204d4945554d2d5353414e4753494f53),
  (43, 0x30783131444609096d5a09232048414e47554c204a4f4e4753454f4e47204d4945554d2d50414e53494f53),
  (0, 0x0),
  (43, 0x30783131453009096d6309232048414e47554c204a4f4e4753454f4e47204d4945554d2d43484945554348),
  (41, 0x30783131453109096d6809232048414e47554c204a4f4e4753454f4e47204d4945554d2d4849455548),
  (43, 0x30783131453209096d4e09232048414e47554c204a4f4e4753454f4e47204b415059454f554e4d4945554d),
  (41, 0x3078313145330909626c09232048414e47554c204a4f4e4753454f4e472050494555502d524945554c),
  (43, 0x3078313145340909627009232048414e47554c204a4f4e4753454f4e472050494555502d50484945555048),
  (41, 0x3078313145350909706809232048414e47554c204a4f4e4753454f4e472050494555502d4849455548),
  (43, 0x3078313145360909704e09232048414e47554c204a4f4e4753454f4e47204b415059454f554e5049455550),
  (41, 0x3078313145370909736709232048414e47554c204a4f4e4753454f4e472053494f532d4b4959454f4b),
  (41, 0x3078313145380909736409232048414e47554c204a4f4e4753454f4e472053494f532d54494b455554),
  (40, 0x3078313145390909736c09232048414e47554c204a4f4e4753454f4e472053494f532d524945554c),
  (40, 0x3078313145410909736209232048414e47554c204a4f4e4753454f4e472053494f532d5049455550),
  (36, 0x30783131454209095a09232048414e47554c204a4f4e4753454f4e472050414e53494f53),
  (41, 0x30783131454309096709232048414e47554c204a4f4e4753454f4e47204945554e472d4b4959454f4b),
  (47, 0x3078313145440909737309232048414e47554c204a4f4e4753454f4e47204945554e472d5353414e474b4959454f4b),
  (43, 0x30783131454609096b6809232048414e47554c204a4f4e4753454f4e47204945554e472d4b484945554b48),
  (0, 0x0),
  (37, 0x30783131463009094e09232048414e47554c204a4f4e4753454f4e47205945534945554e47),
  (43, 0x30783131463109094e7309232048414e47554c204a4f4e4753454f4e47205945534945554e472d53494f53),
  (46, 0x30783131463209094e5a09232048414e47554c204a4f4e4753454f4e47205945534945554e472d50414e53494f53),
  (43, 0x3078313146330909706209232048414e47554c204a4f4e4753454f4e4720504849455550482d5049455550),
  (45, 0x3078313146340909704e09232048414e47554c204a4f4e4753454f4e47204b415059454f554e50484945555048),
  (41, 0x3078313146350909686e09232048414e47554c204a4f4e4753454f4e472048494555482d4e4945554e),
  (41, 0x3078313146360909686c09232048414e47554c204a4f4e4753454f4e472048494555482d524945554c),
  (41, 0x3078313146370909686d09232048414e47554c204a4f4e4753454f4e472048494555482d4d4945554d),
  (41, 0x3078313146380909686209232048414e47554c204a4f4e4753454f4e472048494555482d5049455550),
  (40, 0x30783131463909095109232048414e47554c204a4f4e4753454f4e472059454f52494e4849455548),
  (0, 0x0),
  (1, 0x23),
  (29, 0x2320436861726163746572732030783132303020746f20307831324646),
  (1, 0x23),
  (0, 0x0),
  (33, 0x30783132303009096861092320455448494f5049432053594c4c41424c45204841),
  (33, 0x30783132303109096875092320455448494f5049432053594c4c41424c45204855),
  (33, 0x30783132303209096869092320455448494f5049432053594c4c41424c45204849),
  (35, 0x3078313230330909686161092320455448494f5049432053594c4c41424c4520484141),
  (35, 0x3078313230340909686565092320455448494f5049432053594c4c41424c4520484545),
  (33, 0x30783132303509096865092320455448494f5049432053594c4c41424c45204845),
  (33, 0x3078313230360909686f092320455448494f5049432053594c4c41424c4520484f),
  (33, 0x30783132303809096c61092320455448494f5049432053594c4c41424c45204c41),
  (33, 0x30783132303909096c75092320455448494f5049432053594c4c41424c45204c55),
  (33, 0x30783132304109096c69092320455448494f5049432053594c4c41424c45204c49),
  (35, 0x30783132304209096c6161092320455448494f5049432053594c4c41424c45204c4141),
  (35, 0x30783132304309096c6565092320455448494f5049432053594c4c41424c45204c4545),
  (33, 0x30783132304409096c65092320455448494f5049432053594c4c41424c45204c45),
  (33, 0x30783132304509096c6f092320455448494f5049432053594c4c41424c45204c4f),
  (35, 0x30783132304609096c7761092320455448494f5049432053594c4c41424c45204c5741),
  (0, 0x0),
  (35, 0x3078313231300909686861092320455448494f5049432053594c4c41424c4520484841),
  (35, 0x3078313231310909686875092320455448494f5049432053594c4c41424c4520484855),
  (35, 0x3078313231320909686869092320455448494f5049432053594c4c41424c4520484849),
  (37, 0x307831323133090968686161092320455448494f5049432053594c4c41424c452048484141),
  (37, 0x307831323134090968686565092320455448494f5049432053594c4c41424c452048484545),
  (35, 0x3078313231350909686865092320455448494f5049432053594c4c41424c4520484845),
  (35, 0x307831323136090968686f092320455448494f5049432053594c4c41424c452048484f),
  (37, 0x307831323137090968687761092320455448494f5049432053594c4c41424c452048485741),
  (33, 0x30783132313809096d61092320455448494f5049432053594c4c41424c45204d41),
  (33, 0x30783132313909096d75092320455448494f5049432053594c4c41424c45204d55),
  (33, 0x30783132314109096d69092320455448494f5049432053594c4c41424c45204d49),
  (35, 0x30783132314209096d6161092320455448494f5049432053594c4c41424c45204d4141),
  (35, 0x30783132314309096d6565092320455448494f5049432053594c4c41424c45204d4545),
  (33, 0x30783132314409096d65092320455448494f5049432053594c4c41424c45204d45),
  (33, 0x30783132314509096d6f092320455448494f5049432053594c4c41424c45204d4f),
  (35, 0x30783132314609096d7761092320455448494f5049432053594c4c41424c45204d5741),
  (0, 0x0),
  (35, 0x3078313232300909737a61092320455448494f5049432053594c4c41424c4520535a41),
  (35, 0x3078313232310909737a75092320455448494f5049432053594c4c41424c4520535a55),
  (35, 0x3078313232320909737a69092320455448494f5049432053594c4c41424c4520535a49),
  (37, 0x3078313232330909737a6161092320455448494f5049432053594c4c41424c4520535a4141),
  (37, 0x3078313232340909737a6565092320455448494f5049432053594c4c41424c4520535a4545),
  (35, 0x3078313232350909737a65092320455448494f5049432053594c4c41424c4520535a45),
  (35, 0x3078313232360909737a6f092320455448494f5049432053594c4c41424c4520535a4f)]

/-- Lines 3219-3318 of table/legacy/unidecode.tbl. -/
def legacy_unidecode_34 : List (Nat × Nat) := [
  (37, 0x3078313232370909737a7761092320455448494f5049432053594c4c41424c4520535a5741),
  (33, 0x30783132323809097261092320455448494f5049432053594c4c41424c45205241),
  (33, 0x30783132323909097275092320455448494f5049432053594c4c41424c45205255),
  (33, 0x30783132324109097269092320455448494f5049432053594c4c41424c45205249),
  (35, 0x3078313232420909726161092320455448494f5049432053594c4c41424c4520524141),
  (35, 0x3078313232430909726565092320455448494f5049432053594c4c41424c4520524545),
  (33, 0x30783132324409097265092320455448494f5049432053594c4c41424c45205245),
  (33, 0x3078313232450909726f092320455448494f5049432053594c4c41424c4520524f),
  (35, 0x3078313232460909727761092320455448494f5049432053594c4c41424c4520525741),
  (0, 0x0),
  (33, 0x30783132333009097361092320455448494f5049432053594c4c41424c45205341),
  (33, 0x30783132333109097375092320455448494f5049432053594c4c41424c45205355),
  (33, 0x30783132333209097369092320455448494f5049432053594c4c41424c45205349),
  (35, 0x3078313233330909736161092320455448494f5049432053594c4c41424c4520534141),
  (35, 0x3078313233340909736565092320455448494f5049432053594c4c41424c4520534545),
  (33, 0x30783132333509097365092320455448494f5049432053594c4c41424c45205345),
  (33, 0x3078313233360909736f092320455448494f5049432053594c4c41424c4520534f),
  (35, 0x3078313233370909737761092320455448494f5049432053594c4c41424c4520535741),
  (35, 0x3078313233380909736861092320455448494f5049432053594c4c41424c4520534841),
  (35, 0x3078313233390909736875092320455448494f5049432053594c4c41424c4520534855),
  (35, 0x3078313233410909736869092320455448494f5049432053594c4c41424c4520534849),
  (37, 0x307831323342090973686161092320455448494f5049432053594c4c41424c452053484141),
  (37, 0x307831323343090973686565092320455448494f5049432053594c4c41424c452053484545),
  (35, 0x3078313233440909736865092320455448494f5049432053594c4c41424c4520534845),
  (35, 0x307831323345090973686f092320455448494f5049432053594c4c41424c452053484f),
  (37, 0x307831323346090973687761092320455448494f5049432053594c4c41424c452053485741),
  (0, 0x0),
  (33, 0x30783132343009097161092320455448494f5049432053594c4c41424c45205141),
  (33, 0x30783132343109097175092320455448494f5049432053594c4c41424c45205155),
  (33, 0x30783132343209097169092320455448494f5049432053594c4c41424c45205149),
  (35, 0x3078313234330909716161092320455448494f5049432053594c4c41424c4520514141),
  (35, 0x3078313234340909716565092320455448494f5049432053594c4c41424c4520514545),
  (33, 0x30783132343509097165092320455448494f5049432053594c4c41424c45205145),
  (33, 0x3078313234360909716f092320455448494f5049432053594c4c41424c4520514f),
  (35, 0x3078313234380909717761092320455448494f5049432053594c4c41424c4520515741),
  (35, 0x3078313234410909717769092320455448494f5049432053594c4c41424c4520515749),
  (37, 0x307831323442090971776161092320455448494f5049432053594c4c41424c452051574141),
  (37, 0x307831323443090971776565092320455448494f5049432053594c4c41424c452051574545),
  (35, 0x3078313234440909717765092320455448494f5049432053594c4c41424c4520515745),
  (0, 0x0),
  (35, 0x3078313235300909716861092320455448494f5049432053594c4c41424c4520514841),
  (35, 0x3078313235310909716875092320455448494f5049432053594c4c41424c4520514855),
  (35, 0x3078313235320909716869092320455448494f5049432053594c4c41424c4520514849),
  (37, 0x307831323533090971686161092320455448494f5049432053594c4c41424c452051484141),
  (37, 0x307831323534090971686565092320455448494f5049432053594c4c41424c452051484545),
  (35, 0x3078313235350909716865092320455448494f5049432053594c4c41424c4520514845),
  (35, 0x307831323536090971686f092320455448494f5049432053594c4c41424c452051484f),
  (37, 0x307831323538090971687761092320455448494f5049432053594c4c41424c452051485741),
  (37, 0x307831323541090971687769092320455448494f5049432053594c4c41424c452051485749),
  (39, 0x30783132354209097168776161092320455448494f5049432053594c4c41424c45205148574141),
  (39, 0x30783132354309097168776565092320455448494f5049432053594c4c41424c45205148574545),
  (37, 0x307831323544090971687765092320455448494f5049432053594c4c41424c452051485745),
  (0, 0x0),
  (33, 0x30783132363009096261092320455448494f5049432053594c4c41424c45204241),
  (33, 0x30783132363109096275092320455448494f5049432053594c4c41424c45204255),
  (33, 0x30783132363209096269092320455448494f5049432053594c4c41424c45204249),
  (35, 0x3078313236330909626161092320455448494f5049432053594c4c41424c4520424141),
  (35, 0x3078313236340909626565092320455448494f5049432053594c4c41424c4520424545),
  (33, 0x30783132363509096265092320455448494f5049432053594c4c41424c45204245),
  (33, 0x3078313236360909626f092320455448494f5049432053594c4c41424c4520424f),
  (35, 0x3078313236370909627761092320455448494f5049432053594c4c41424c4520425741),
  (33, 0x30783132363809097661092320455448494f5049432053594c4c41424c45205641),
  (33, 0x30783132363909097675092320455448494f5049432053594c4c41424c45205655),
  (33, 0x30783132364109097669092320455448494f5049432053594c4c41424c45205649),
  (35, 0x3078313236420909766161092320455448494f5049432053594c4c41424c4520564141),
  (35, 0x3078313236430909766565092320455448494f5049432053594c4c41424c4520564545),
  (33, 0x30783132364409097665092320455448494f5049432053594c4c41424c45205645),
  (33, 0x3078313236450909766f092320455448494f5049432053594c4c41424c4520564f),
  (35, 0x3078313236460909767761092320455448494f5049432053594c4c41424c4520565741),
  (0, 0x0),
  (33, 0x30783132373009097461092320455448494f5049432053594c4c41424c45205441),
  (33, 0x30783132373109097475092320455448494f5049432053594c4c41424c45205455),
  (33, 0x30783132373209097469092320455448494f5049432053594c4c41424c45205449),
  (35, 0x3078313237330909746161092320455448494f5049432053594c4c41424c4520544141),
  (35, 0x3078313237340909746565092320455448494f5049432053594c4c41424c4520544545),
  (33, 0x30783132373509097465092320455448494f5049432053594c4c41424c45205445),
  (33, 0x3078313237360909746f092320455448494f5049432053594c4c41424c4520544f),
  (35, 0x3078313237370909747761092320455448494f5049432053594c4c41424c4520545741),
  (33, 0x30783132373809096361092320455448494f5049432053594c4c41424c45204341),
  (33, 0x30783132373909096375092320455448494f5049432053594c4c41424c45204355),
  (33, 0x30783132374109096369092320455448494f5049432053594c4c41424c45204349),
  (35, 0x3078313237420909636161092320455448494f5049432053594c4c41424c4520434141),
  (35, 0x3078313237430909636565092320455448494f5049432053594c4c41424c4520434545),
  (33, 0x30783132374409096365092320455448494f5049432053594c4c41424c45204345),
  (33, 0x3078313237450909636f092320455448494f5049432053594c4c41424c4520434f),
  (35, 0x3078313237460909637761092320455448494f5049432053594c4c41424c4520435741),
  (0, 0x0),
  (33, 0x30783132383009097861092320455448494f5049432053594c4c41424c45205841),
  (33, 0x30783132383109097875092320455448494f5049432053594c4c41424c45205855),
  (33, 0x30783132383209097869092320455448494f5049432053594c4c41424c45205849),
  (35, 0x3078313238330909786161092320455448494f5049432053594c4c41424c4520584141),
  (35, 0x3078313238340909786565092320455448494f5049432053594c4c41424c4520584545),
  (33, 0x30783132383509097865092320455448494f5049432053594c4c41424c45205845),
  (33, 0x3078313238360909786f092320455448494f5049432053594c4c41424c4520584f),
  (35, 0x3078313238380909787761092320455448494f5049432053594c4c41424c4520585741),
  (35, 0x3078313238410909787769092320455448494f5049432053594c4c41424c4520585749),
  (37, 0x307831323842090978776161092320455448494f5049432053594c4c41424c452058574141),
  (37, 0x307831323843090978776565092320455448494f5049432053594c4c41424c452058574545),
  (35, 0x3078313238440909787765092320455448494f5049432053594c4c41424c4520585745),
  (0, 0x0)]

/-- Lines 3319-3418 of table/legacy/unidecode.tbl. -/
def legacy_unidecode_35 : List (Nat × Nat) := [
  (33, 0x30783132393009096e61092320455448494f5049432053594c4c41424c45204e41),
  (33, 0x30783132393109096e75092320455448494f5049432053594c4c41424c45204e55),
  (33, 0x30783132393209096e69092320455448494f5049432053594c4c41424c45204e49),
  (35, 0x30783132393309096e6161092320455448494f5049432053594c4c41424c45204e4141),
  (35, 0x30783132393409096e6565092320455448494f5049432053594c4c41424c45204e4545),
  (33, 0x30783132393509096e65092320455448494f5049432053594c4c41424c45204e45),
  (33, 0x30783132393609096e6f092320455448494f5049432053594c4c41424c45204e4f),
  (35, 0x30783132393709096e7761092320455448494f5049432053594c4c41424c45204e5741),
  (35, 0x30783132393809096e7961092320455448494f5049432053594c4c41424c45204e5941),
  (35, 0x30783132393909096e7975092320455448494f5049432053594c4c41424c45204e5955),
  (35, 0x30783132394109096e7969092320455448494f5049432053594c4c41424c45204e5949),
  (37, 0x30783132394209096e796161092320455448494f5049432053594c4c41424c45204e594141),
  (37, 0x30783132394309096e796565092320455448494f5049432053594c4c41424c45204e594545),
  (35, 0x30783132394409096e7965092320455448494f5049432053594c4c41424c45204e5945),
  (35, 0x30783132394509096e796f092320455448494f5049432053594c4c41424c45204e594f),
  (37, 0x30783132394609096e797761092320455448494f5049432053594c4c41424c45204e595741),
  (0, 0x0),
  (42, 0x307831324130090922276122092320455448494f5049432053594c4c41424c4520474c4f5454414c2041),
  (42, 0x307831324131090922277522092320455448494f5049432053594c4c41424c4520474c4f5454414c2055),
  (44, 0x30783132413309092227616122092320455448494f5049432053594c4c41424c4520474c4f5454414c204141),
  (44, 0x30783132413409092227656522092320455448494f5049432053594c4c41424c4520474c4f5454414c204545),
  (42, 0x307831324135090922276522092320455448494f5049432053594c4c41424c4520474c4f5454414c2045),
  (42, 0x307831324136090922276f22092320455448494f5049432053594c4c41424c4520474c4f5454414c204f),
  (44, 0x30783132413709092227776122092320455448494f5049432053594c4c41424c4520474c4f5454414c205741),
  (33, 0x30783132413809096b61092320455448494f5049432053594c4c41424c45204b41),
  (33, 0x30783132413909096b75092320455448494f5049432053594c4c41424c45204b55),
  (33, 0x30783132414109096b69092320455448494f5049432053594c4c41424c45204b49),
  (35, 0x30783132414209096b6161092320455448494f5049432053594c4c41424c45204b4141),
  (35, 0x30783132414309096b6565092320455448494f5049432053594c4c41424c45204b4545),
  (33, 0x30783132414409096b65092320455448494f5049432053594c4c41424c45204b45),
  (33, 0x30783132414509096b6f092320455448494f5049432053594c4c41424c45204b4f),
  (0, 0x0),
  (35, 0x30783132423009096b7761092320455448494f5049432053594c4c41424c45204b5741),
  (35, 0x30783132423209096b7769092320455448494f5049432053594c4c41424c45204b5749),
  (37, 0x30783132423309096b776161092320455448494f5049432053594c4c41424c45204b574141),
  (37, 0x30783132423409096b776565092320455448494f5049432053594c4c41424c45204b574545),
  (35, 0x30783132423509096b7765092320455448494f5049432053594c4c41424c45204b5745),
  (35, 0x30783132423809096b7861092320455448494f5049432053594c4c41424c45204b5841),
  (35, 0x30783132423909096b7875092320455448494f5049432053594c4c41424c45204b5855),
  (35, 0x30783132424109096b7869092320455448494f5049432053594c4c41424c45204b5849),
  (37, 0x30783132424209096b786161092320455448494f5049432053594c4c41424c45204b584141),
  (37, 0x30783132424309096b786565092320455448494f5049432053594c4c41424c45204b584545),
  (35, 0x30783132424409096b7865092320455448494f5049432053594c4c41424c45204b5845),
  (35, 0x30783132424509096b786f092320455448494f5049432053594c4c41424c45204b584f),
  (0, 0x0),
  (37, 0x30783132433009096b787761092320455448494f5049432053594c4c41424c45204b585741),
  (37, 0x30783132433209096b787769092320455448494f5049432053594c4c41424c45204b585749),
  (39, 0x30783132433309096b78776161092320455448494f5049432053594c4c41424c45204b58574141),
  (39, 0x30783132433409096b78776565092320455448494f5049432053594c4c41424c45204b58574545),
  (37, 0x30783132433509096b787765092320455448494f5049432053594c4c41424c45204b585745),
  (33, 0x30783132433809097761092320455448494f5049432053594c4c41424c45205741),
  (33, 0x30783132433909097775092320455448494f5049432053594c4c41424c45205755),
  (33, 0x30783132434109097769092320455448494f5049432053594c4c41424c45205749),
  (35, 0x3078313243420909776161092320455448494f5049432053594c4c41424c4520574141),
  (35, 0x3078313243430909776565092320455448494f5049432053594c4c41424c4520574545),
  (33, 0x30783132434409097765092320455448494f5049432053594c4c41424c45205745),
  (33, 0x3078313243450909776f092320455448494f5049432053594c4c41424c4520574f),
  (0, 0x0),
  (43, 0x30783132443009096061092320455448494f5049432053594c4c41424c452050484152594e4745414c2041),
  (43, 0x30783132443109096075092320455448494f5049432053594c4c41424c452050484152594e4745414c2055),
  (43, 0x30783132443209096069092320455448494f5049432053594c4c41424c452050484152594e4745414c2049),
  (45, 0x3078313244330909606161092320455448494f5049432053594c4c41424c452050484152594e4745414c204141),
  (45, 0x3078313244340909606565092320455448494f5049432053594c4c41424c452050484152594e4745414c204545),
  (43, 0x30783132443509096065092320455448494f5049432053594c4c41424c452050484152594e4745414c2045),
  (43, 0x3078313244360909606f092320455448494f5049432053594c4c41424c452050484152594e4745414c204f),
  (33, 0x30783132443809097a61092320455448494f5049432053594c4c41424c45205a41),
  (33, 0x30783132443909097a75092320455448494f5049432053594c4c41424c45205a55),
  (33, 0x30783132444109097a69092320455448494f5049432053594c4c41424c45205a49),
  (35, 0x30783132444209097a6161092320455448494f5049432053594c4c41424c45205a4141),
  (35, 0x30783132444309097a6565092320455448494f5049432053594c4c41424c45205a4545),
  (33, 0x30783132444409097a65092320455448494f5049432053594c4c41424c45205a45),
  (33, 0x30783132444509097a6f092320455448494f5049432053594c4c41424c45205a4f),
  (35, 0x30783132444609097a7761092320455448494f5049432053594c4c41424c45205a5741),
  (0, 0x0),
  (35, 0x30783132453009097a6861092320455448494f5049432053594c4c41424c45205a4841),
  (35, 0x30783132453109097a6875092320455448494f5049432053594c4c41424c45205a4855),
  (35, 0x30783132453209097a6869092320455448494f5049432053594c4c41424c45205a4849),
  (37, 0x30783132453309097a686161092320455448494f5049432053594c4c41424c45205a484141),
  (37, 0x30783132453409097a686565092320455448494f5049432053594c4c41424c45205a484545),
  (35, 0x30783132453509097a6865092320455448494f5049432053594c4c41424c45205a4845),
  (35, 0x30783132453609097a686f092320455448494f5049432053594c4c41424c45205a484f),
  (37, 0x30783132453709097a687761092320455448494f5049432053594c4c41424c45205a485741),
  (33, 0x30783132453809097961092320455448494f5049432053594c4c41424c45205941),
  (33, 0x30783132453909097975092320455448494f5049432053594c4c41424c45205955),
  (33, 0x30783132454109097969092320455448494f5049432053594c4c41424c45205949),
  (35, 0x3078313245420909796161092320455448494f5049432053594c4c41424c4520594141),
  (35, 0x3078313245430909796565092320455448494f5049432053594c4c41424c4520594545),
  (33, 0x30783132454409097965092320455448494f5049432053594c4c41424c45205945),
  (33, 0x3078313245450909796f092320455448494f5049432053594c4c41424c4520594f),
  (0, 0x0),
  (33, 0x30783132463009096461092320455448494f5049432053594c4c41424c45204441),
  (33, 0x30783132463109096475092320455448494f5049432053594c4c41424c45204455),
  (33, 0x30783132463209096469092320455448494f5049432053594c4c41424c45204449),
  (35, 0x3078313246330909646161092320455448494f5049432053594c4c41424c4520444141),
  (35, 0x3078313246340909646565092320455448494f5049432053594c4c41424c4520444545),
  (33, 0x30783132463509096465092320455448494f5049432053594c4c41424c45204445),
  (33, 0x3078313246360909646f092320455448494f5049432053594c4c41424c4520444f),
  (35, 0x3078313246370909647761092320455448494f5049432053594c4c41424c4520445741),
  (35, 0x3078313246380909646461092320455448494f5049432053594c4c41424c4520444441),
  (35, 0x3078313246390909646475092320455448494f5049432053594c4c41424c4520444455)]

/-- Lines 3419-3518 of table/legacy/unidecode.tbl. -/
def legacy_unidecode_36 : List (Nat × Nat) := [
  (35, 0x3078313246410909646469092320455448494f5049432053594c4c41424c4520444449),
  (37, 0x307831324642090964646161092320455448494f5049432053594c4c41424c452044444141),
  (37, 0x307831324643090964646565092320455448494f5049432053594c4c41424c452044444545),
  (35, 0x3078313246440909646465092320455448494f5049432053594c4c41424c4520444445),
  (35, 0x307831324645090964646f092320455448494f5049432053594c4c41424c452044444f),
  (37, 0x307831324646090964647761092320455448494f5049432053594c4c41424c452044445741),
  (0, 0x0),
  (1, 0x23),
  (29, 0x2320436861726163746572732030783133303020746f20307831334646),
  (1, 0x23),
  (0, 0x0),
  (33, 0x30783133303009096a61092320455448494f5049432053594c4c41424c45204a41),
  (33, 0x30783133303109096a75092320455448494f5049432053594c4c41424c45204a55),
  (33, 0x30783133303209096a69092320455448494f5049432053594c4c41424c45204a49),
  (35, 0x30783133303309096a6161092320455448494f5049432053594c4c41424c45204a4141),
  (35, 0x30783133303409096a6565092320455448494f5049432053594c4c41424c45204a4545),
  (33, 0x30783133303509096a65092320455448494f5049432053594c4c41424c45204a45),
  (33, 0x30783133303609096a6f092320455448494f5049432053594c4c41424c45204a4f),
  (35, 0x30783133303709096a7761092320455448494f5049432053594c4c41424c45204a5741),
  (33, 0x30783133303809096761092320455448494f5049432053594c4c41424c45204741),
  (33, 0x30783133303909096775092320455448494f5049432053594c4c41424c45204755),
  (33, 0x30783133304109096769092320455448494f5049432053594c4c41424c45204749),
  (35, 0x3078313330420909676161092320455448494f5049432053594c4c41424c4520474141),
  (35, 0x3078313330430909676565092320455448494f5049432053594c4c41424c4520474545),
  (33, 0x30783133304409096765092320455448494f5049432053594c4c41424c45204745),
  (33, 0x3078313330450909676f092320455448494f5049432053594c4c41424c4520474f),
  (0, 0x0),
  (35, 0x3078313331300909677761092320455448494f5049432053594c4c41424c4520475741),
  (35, 0x3078313331320909677769092320455448494f5049432053594c4c41424c4520475749),
  (37, 0x307831333133090967776161092320455448494f5049432053594c4c41424c452047574141),
  (37, 0x307831333134090967776565092320455448494f5049432053594c4c41424c452047574545),
  (35, 0x3078313331350909677765092320455448494f5049432053594c4c41424c4520475745),
  (35, 0x3078313331380909676761092320455448494f5049432053594c4c41424c4520474741),
  (35, 0x3078313331390909676775092320455448494f5049432053594c4c41424c4520474755),
  (35, 0x3078313331410909676769092320455448494f5049432053594c4c41424c4520474749),
  (37, 0x307831333142090967676161092320455448494f5049432053594c4c41424c452047474141),
  (37, 0x307831333143090967676565092320455448494f5049432053594c4c41424c452047474545),
  (35, 0x3078313331440909676765092320455448494f5049432053594c4c41424c4520474745),
  (35, 0x307831333145090967676f092320455448494f5049432053594c4c41424c452047474f),
  (0, 0x0),
  (35, 0x3078313332300909746861092320455448494f5049432053594c4c41424c4520544841),
  (35, 0x3078313332310909746875092320455448494f5049432053594c4c41424c4520544855),
  (35, 0x3078313332320909746869092320455448494f5049432053594c4c41424c4520544849),
  (37, 0x307831333233090974686161092320455448494f5049432053594c4c41424c452054484141),
  (37, 0x307831333234090974686565092320455448494f5049432053594c4c41424c452054484545),
  (35, 0x3078313332350909746865092320455448494f5049432053594c4c41424c4520544845),
  (35, 0x307831333236090974686f092320455448494f5049432053594c4c41424c452054484f),
  (37, 0x307831333237090974687761092320455448494f5049432053594c4c41424c452054485741),
  (35, 0x3078313332380909636861092320455448494f5049432053594c4c41424c4520434841),
  (35, 0x3078313332390909636875092320455448494f5049432053594c4c41424c4520434855),
  (35, 0x3078313332410909636869092320455448494f5049432053594c4c41424c4520434849),
  (37, 0x307831333242090963686161092320455448494f5049432053594c4c41424c452043484141),
  (37, 0x307831333243090963686565092320455448494f5049432053594c4c41424c452043484545),
  (35, 0x3078313332440909636865092320455448494f5049432053594c4c41424c4520434845),
  (35, 0x307831333245090963686f092320455448494f5049432053594c4c41424c452043484f),
  (37, 0x307831333246090963687761092320455448494f5049432053594c4c41424c452043485741),
  (0, 0x0),
  (35, 0x3078313333300909706861092320455448494f5049432053594c4c41424c4520504841),
  (35, 0x3078313333310909706875092320455448494f5049432053594c4c41424c4520504855),
  (35, 0x3078313333320909706869092320455448494f5049432053594c4c41424c4520504849),
  (37, 0x307831333333090970686161092320455448494f5049432053594c4c41424c452050484141),
  (37, 0x307831333334090970686565092320455448494f5049432053594c4c41424c452050484545),
  (35, 0x3078313333350909706865092320455448494f5049432053594c4c41424c4520504845),
  (35, 0x307831333336090970686f092320455448494f5049432053594c4c41424c452050484f),
  (37, 0x307831333337090970687761092320455448494f5049432053594c4c41424c452050485741),
  (35, 0x3078313333380909747361092320455448494f5049432053594c4c41424c4520545341),
  (35, 0x3078313333390909747375092320455448494f5049432053594c4c41424c4520545355),
  (35, 0x3078313333410909747369092320455448494f5049432053594c4c41424c4520545349),
  (37, 0x307831333342090974736161092320455448494f5049432053594c4c41424c452054534141),
  (37, 0x307831333343090974736565092320455448494f5049432053594c4c41424c452054534545),
  (35, 0x3078313333440909747365092320455448494f5049432053594c4c41424c4520545345),
  (35, 0x307831333345090974736f092320455448494f5049432053594c4c41424c452054534f),
  (37, 0x307831333346090974737761092320455448494f5049432053594c4c41424c452054535741),
  (0, 0x0),
  (35, 0x3078313334300909747a61092320455448494f5049432053594c4c41424c4520545a41),
  (35, 0x3078313334310909747a75092320455448494f5049432053594c4c41424c4520545a55),
  (35, 0x3078313334320909747a69092320455448494f5049432053594c4c41424c4520545a49),
  (37, 0x3078313334330909747a6161092320455448494f5049432053594c4c41424c4520545a4141),
  (37, 0x3078313334340909747a6565092320455448494f5049432053594c4c41424c4520545a4545),
  (35, 0x3078313334350909747a65092320455448494f5049432053594c4c41424c4520545a45),
  (35, 0x3078313334360909747a6f092320455448494f5049432053594c4c41424c4520545a4f),
  (33, 0x30783133343809096661092320455448494f5049432053594c4c41424c45204641),
  (33, 0x30783133343909096675092320455448494f5049432053594c4c41424c45204655),
  (33, 0x30783133344109096669092320455448494f5049432053594c4c41424c45204649),
  (35, 0x3078313334420909666161092320455448494f5049432053594c4c41424c4520464141),
  (35, 0x3078313334430909666565092320455448494f5049432053594c4c41424c4520464545),
  (33, 0x30783133344409096665092320455448494f5049432053594c4c41424c45204645),
  (33, 0x3078313334450909666f092320455448494f5049432053594c4c41424c4520464f),
  (35, 0x3078313334460909667761092320455448494f5049432053594c4c41424c4520465741),
  (0, 0x0),
  (33, 0x30783133353009097061092320455448494f5049432053594c4c41424c45205041),
  (33, 0x30783133353109097075092320455448494f5049432053594c4c41424c45205055),
  (33, 0x30783133353209097069092320455448494f5049432053594c4c41424c45205049),
  (35, 0x3078313335330909706161092320455448494f5049432053594c4c41424c4520504141),
  (35, 0x3078313335340909706565092320455448494f5049432053594c4c41424c4520504545),
  (33, 0x30783133353509097065092320455448494f5049432053594c4c41424c45205045),
  (33, 0x3078313335360909706f092320455448494f5049432053594c4c41424c4520504f),
  (35, 0x3078313335370909707761092320455448494f5049432053594c4c41424c4520505741),
  (35, 0x3078313335380909727961092320455448494f5049432053594c4c41424c4520525941),
  (35, 0x30783133353909096d7961092320455448494f5049432053594c4c41424c45204d5941)]

/-- Lines 3519-3618 of table/legacy/unidecode.tbl. -/
def legacy_unidecode_37 : List (Nat × Nat) := [
  (35, 0x3078313335410909667961092320455448494f5049432053594c4c41424c4520465941),
  (0, 0x0),
  (32, 0x3078313336310909222022092320455448494f50494320574f52445350414345),
  (30, 0x30783133363209092e092320455448494f5049432046554c4c2053544f50),
  (26, 0x30783133363309092c092320455448494f50494320434f4d4d41),
  (30, 0x30783133363409093b092320455448494f5049432053454d49434f4c4f4e),
  (26, 0x30783133363509093a092320455448494f50494320434f4c4f4e),
  (36, 0x30783133363609093a3a20092320455448494f504943205052454641434520434f4c4f4e),
  (34, 0x30783133363709093f092320455448494f504943205155455354494f4e204d41524b),
  (41, 0x30783133363809092f2f092320455448494f5049432050415241475241504820534550415241544f52),
  (30, 0x307831333639090931092320455448494f504943204449474954204f4e45),
  (30, 0x307831333641090932092320455448494f5049432044494749542054574f),
  (32, 0x307831333642090933092320455448494f504943204449474954205448524545),
  (31, 0x307831333643090934092320455448494f50494320444947495420464f5552),
  (31, 0x307831333644090935092320455448494f5049432044494749542046495645),
  (30, 0x307831333645090936092320455448494f50494320444947495420534958),
  (32, 0x307831333646090937092320455448494f50494320444947495420534556454e),
  (0, 0x0),
  (32, 0x307831333730090938092320455448494f504943204449474954204549474854),
  (31, 0x307831333731090939092320455448494f504943204449474954204e494e45),
  (33, 0x307831333732090931302b092320455448494f504943204e554d4245522054454e),
  (36, 0x307831333733090932302b092320455448494f504943204e554d424552205457454e5459),
  (36, 0x307831333734090933302b092320455448494f504943204e554d42455220544849525459),
  (35, 0x307831333735090934302b092320455448494f504943204e554d42455220464f525459),
  (35, 0x307831333736090935302b092320455448494f504943204e554d424552204649465459),
  (35, 0x307831333737090936302b092320455448494f504943204e554d424552205349585459),
  (37, 0x307831333738090937302b092320455448494f504943204e554d42455220534556454e5459),
  (36, 0x307831333739090938302b092320455448494f504943204e554d42455220454947485459),
  (36, 0x307831333741090939302b092320455448494f504943204e554d424552204e494e455459),
  (38, 0x30783133374209093130302b092320455448494f504943204e554d4245522048554e44524544),
  (46, 0x307831333743090931302c3030302b092320455448494f504943204e554d4245522054454e2054484f5553414e44),
  (0, 0x0),
  (29, 0x307831334130090961092320434845524f4b4545204c45545445522041),
  (29, 0x307831334131090965092320434845524f4b4545204c45545445522045),
  (29, 0x307831334132090969092320434845524f4b4545204c45545445522049),
  (29, 0x30783133413309096f092320434845524f4b4545204c4554544552204f),
  (29, 0x307831334134090975092320434845524f4b4545204c45545445522055),
  (29, 0x307831334135090976092320434845524f4b4545204c45545445522056),
  (31, 0x30783133413609096761092320434845524f4b4545204c4554544552204741),
  (31, 0x30783133413709096b61092320434845524f4b4545204c4554544552204b41),
  (31, 0x30783133413809096765092320434845524f4b4545204c4554544552204745),
  (31, 0x30783133413909096769092320434845524f4b4545204c4554544552204749),
  (31, 0x3078313341410909676f092320434845524f4b4545204c455454455220474f),
  (31, 0x30783133414209096775092320434845524f4b4545204c4554544552204755),
  (31, 0x30783133414309096776092320434845524f4b4545204c4554544552204756),
  (31, 0x30783133414409096861092320434845524f4b4545204c4554544552204841),
  (31, 0x30783133414509096865092320434845524f4b4545204c4554544552204845),
  (31, 0x30783133414609096869092320434845524f4b4545204c4554544552204849),
  (0, 0x0),
  (31, 0x3078313342300909686f092320434845524f4b4545204c455454455220484f),
  (31, 0x30783133423109096875092320434845524f4b4545204c4554544552204855),
  (31, 0x30783133423209096876092320434845524f4b4545204c4554544552204856),
  (31, 0x30783133423309096c61092320434845524f4b4545204c4554544552204c41),
  (31, 0x30783133423409096c65092320434845524f4b4545204c4554544552204c45),
  (31, 0x30783133423509096c69092320434845524f4b4545204c4554544552204c49),
  (31, 0x30783133423609096c6f092320434845524f4b4545204c4554544552204c4f),
  (31, 0x30783133423709096c75092320434845524f4b4545204c4554544552204c55),
  (31, 0x30783133423809096c76092320434845524f4b4545204c4554544552204c56),
  (31, 0x30783133423909096d61092320434845524f4b4545204c4554544552204d41),
  (31, 0x30783133424109096d65092320434845524f4b4545204c4554544552204d45),
  (31, 0x30783133424209096d69092320434845524f4b4545204c4554544552204d49),
  (31, 0x30783133424309096d6f092320434845524f4b4545204c4554544552204d4f),
  (31, 0x30783133424409096d75092320434845524f4b4545204c4554544552204d55),
  (31, 0x30783133424509096e61092320434845524f4b4545204c4554544552204e41),
  (33, 0x3078313342460909686e61092320434845524f4b4545204c455454455220484e41),
  (0, 0x0),
  (33, 0x30783133433009096e6168092320434845524f4b4545204c4554544552204e4148),
  (31, 0x30783133433109096e65092320434845524f4b4545204c4554544552204e45),
  (31, 0x30783133433209096e69092320434845524f4b4545204c4554544552204e49),
  (31, 0x30783133433309096e6f092320434845524f4b4545204c4554544552204e4f),
  (31, 0x30783133433409096e75092320434845524f4b4545204c4554544552204e55),
  (31, 0x30783133433509096e76092320434845524f4b4545204c4554544552204e56),
  (33, 0x3078313343360909717561092320434845524f4b4545204c455454455220515541),
  (33, 0x3078313343370909717565092320434845524f4b4545204c455454455220515545),
  (33, 0x3078313343380909717569092320434845524f4b4545204c455454455220515549),
  (33, 0x307831334339090971756f092320434845524f4b4545204c45545445522051554f),
  (33, 0x3078313343410909717575092320434845524f4b4545204c455454455220515555),
  (33, 0x3078313343420909717576092320434845524f4b4545204c455454455220515556),
  (31, 0x30783133434309097361092320434845524f4b4545204c4554544552205341),
  (29, 0x307831334344090973092320434845524f4b4545204c45545445522053),
  (31, 0x30783133434509097365092320434845524f4b4545204c4554544552205345),
  (31, 0x30783133434609097369092320434845524f4b4545204c4554544552205349),
  (0, 0x0),
  (31, 0x3078313344300909736f092320434845524f4b4545204c455454455220534f),
  (31, 0x30783133443109097375092320434845524f4b4545204c4554544552205355),
  (31, 0x30783133443209097376092320434845524f4b4545204c4554544552205356),
  (31, 0x30783133443309096461092320434845524f4b4545204c4554544552204441),
  (31, 0x30783133443409097461092320434845524f4b4545204c4554544552205441),
  (31, 0x30783133443509096465092320434845524f4b4545204c4554544552204445),
  (31, 0x30783133443609097465092320434845524f4b4545204c4554544552205445),
  (31, 0x30783133443709096469092320434845524f4b4545204c4554544552204449),
  (31, 0x30783133443809097469092320434845524f4b4545204c4554544552205449),
  (31, 0x3078313344390909646f092320434845524f4b4545204c455454455220444f),
  (31, 0x30783133444109096475092320434845524f4b4545204c4554544552204455),
  (31, 0x30783133444209096476092320434845524f4b4545204c4554544552204456),
  (33, 0x3078313344430909646c61092320434845524f4b4545204c455454455220444c41),
  (33, 0x3078313344440909746c61092320434845524f4b4545204c455454455220544c41),
  (33, 0x3078313344450909746c65092320434845524f4b4545204c455454455220544c45),
  (33, 0x3078313344460909746c69092320434845524f4b4545204c455454455220544c49),
  (0, 0x0)]

/-- Lines 3619-3718 of table/legacy/unidecode.tbl. -/
def legacy_unidecode_38 : List (Nat × Nat) := [
  (33, 0x3078313345300909746c6f092320434845524f4b4545204c455454455220544c4f),
  (33, 0x3078313345310909746c75092320434845524f4b4545204c455454455220544c55),
  (33, 0x3078313345320909746c76092320434845524f4b4545204c455454455220544c56),
  (33, 0x3078313345330909747361092320434845524f4b4545204c455454455220545341),
  (33, 0x3078313345340909747365092320434845524f4b4545204c455454455220545345),
  (33, 0x3078313345350909747369092320434845524f4b4545204c455454455220545349),
  (33, 0x307831334536090974736f092320434845524f4b4545204c45545445522054534f),
  (33, 0x3078313345370909747375092320434845524f4b4545204c455454455220545355),
  (33, 0x3078313345380909747376092320434845524f4b4545204c455454455220545356),
  (31, 0x30783133453909097761092320434845524f4b4545204c4554544552205741),
  (31, 0x30783133454109097765092320434845524f4b4545204c4554544552205745),
  (31, 0x30783133454209097769092320434845524f4b4545204c4554544552205749),
  (31, 0x3078313345430909776f092320434845524f4b4545204c455454455220574f),
  (31, 0x30783133454409097775092320434845524f4b4545204c4554544552205755),
  (31, 0x30783133454509097776092320434845524f4b4545204c4554544552205756),
  (31, 0x30783133454609097961092320434845524f4b4545204c4554544552205941),
  (0, 0x0),
  (31, 0x30783133463009097965092320434845524f4b4545204c4554544552205945),
  (31, 0x30783133463109097969092320434845524f4b4545204c4554544552205949),
  (31, 0x3078313346320909796f092320434845524f4b4545204c455454455220594f),
  (31, 0x30783133463309097975092320434845524f4b4545204c4554544552205955),
  (31, 0x30783133463409097976092320434845524f4b4545204c4554544552205956),
  (0, 0x0),
  (1, 0x23),
  (29, 0x2320436861726163746572732030783134303020746f20307831344646),
  (1, 0x23),
  (0, 0x0),
  (32, 0x30783134303109096509232043414e414449414e2053594c4c41424943532045),
  (36, 0x307831343032090961616909232043414e414449414e2053594c4c414249435320414149),
  (32, 0x30783134303309096909232043414e414449414e2053594c4c41424943532049),
  (34, 0x3078313430340909696909232043414e414449414e2053594c4c4142494353204949),
  (32, 0x30783134303509096f09232043414e414449414e2053594c4c4142494353204f),
  (34, 0x30783134303609096f6f09232043414e414449414e2053594c4c4142494353204f4f),
  (41, 0x30783134303709096f6f09232043414e414449414e2053594c4c414249435320592d43524545204f4f),
  (42, 0x3078313430380909656509232043414e414449414e2053594c4c41424943532043415252494552204545),
  (40, 0x30783134303909096909232043414e414449414e2053594c4c414249435320434152524945522049),
  (32, 0x30783134304109096109232043414e414449414e2053594c4c41424943532041),
  (34, 0x3078313430420909616109232043414e414449414e2053594c4c4142494353204141),
  (34, 0x3078313430430909776509232043414e414449414e2053594c4c4142494353205745),
  (44, 0x3078313430440909776509232043414e414449414e2053594c4c414249435320574553542d43524545205745),
  (34, 0x3078313430450909776909232043414e414449414e2053594c4c4142494353205749),
  (44, 0x3078313430460909776909232043414e414449414e2053594c4c414249435320574553542d43524545205749),
  (0, 0x0),
  (36, 0x307831343130090977696909232043414e414449414e2053594c4c414249435320574949),
  (46, 0x307831343131090977696909232043414e414449414e2053594c4c414249435320574553542d4352454520574949),
  (34, 0x3078313431320909776f09232043414e414449414e2053594c4c414249435320574f),
  (44, 0x3078313431330909776f09232043414e414449414e2053594c4c414249435320574553542d4352454520574f),
  (36, 0x3078313431340909776f6f09232043414e414449414e2053594c4c414249435320574f4f),
  (46, 0x3078313431350909776f6f09232043414e414449414e2053594c4c414249435320574553542d4352454520574f4f),
  (44, 0x3078313431360909776f6f09232043414e414449414e2053594c4c4142494353204e41534b41504920574f4f),
  (34, 0x3078313431370909776109232043414e414449414e2053594c4c4142494353205741),
  (44, 0x3078313431380909776109232043414e414449414e2053594c4c414249435320574553542d43524545205741),
  (36, 0x307831343139090977616109232043414e414449414e2053594c4c414249435320574141),
  (46, 0x307831343141090977616109232043414e414449414e2053594c4c414249435320574553542d4352454520574141),
  (44, 0x307831343142090977616109232043414e414449414e2053594c4c4142494353204e41534b41504920574141),
  (34, 0x3078313431430909616909232043414e414449414e2053594c4c4142494353204149),
  (39, 0x30783134314409097709232043414e414449414e2053594c4c414249435320592d435245452057),
  (45, 0x307831343145090922272209232043414e414449414e2053594c4c414249435320474c4f5454414c2053544f50),
  (42, 0x30783134314609097409232043414e414449414e2053594c4c41424943532046494e414c204143555445),
  (0, 0x0),
  (42, 0x30783134323009096b09232043414e414449414e2053594c4c41424943532046494e414c204752415645),
  (54, 0x3078313432310909736809232043414e414449414e2053594c4c41424943532046494e414c20424f54544f4d2048414c462052494e47),
  (50, 0x30783134323209097309232043414e414449414e2053594c4c41424943532046494e414c20544f502048414c462052494e47),
  (52, 0x30783134323309096e09232043414e414449414e2053594c4c41424943532046494e414c2052494748542048414c462052494e47),
  (41, 0x30783134323409097709232043414e414449414e2053594c4c41424943532046494e414c2052494e47),
  (49, 0x30783134323509096e09232043414e414449414e2053594c4c41424943532046494e414c20444f55424c45204143555445),
  (47, 0x30783134323709097709232043414e414449414e2053594c4c41424943532046494e414c204d4944444c4520444f54),
  (60, 0x30783134323809096309232043414e414449414e2053594c4c41424943532046494e414c2053484f525420484f52495a4f4e54414c205354524f4b45),
  (46, 0x30783134324109096c09232043414e414449414e2053594c4c41424943532046494e414c20444f574e205441434b),
  (34, 0x3078313432420909656e09232043414e414449414e2053594c4c414249435320454e),
  (34, 0x3078313432430909696e09232043414e414449414e2053594c4c414249435320494e),
  (34, 0x30783134324409096f6e09232043414e414449414e2053594c4c4142494353204f4e),
  (34, 0x3078313432450909616e09232043414e414449414e2053594c4c414249435320414e),
  (34, 0x3078313432460909706509232043414e414449414e2053594c4c4142494353205045),
  (0, 0x0),
  (38, 0x30783134333009097061616909232043414e414449414e2053594c4c41424943532050414149),
  (34, 0x3078313433310909706909232043414e414449414e2053594c4c4142494353205049),
  (36, 0x307831343332090970696909232043414e414449414e2053594c4c414249435320504949),
  (34, 0x3078313433330909706f09232043414e414449414e2053594c4c414249435320504f),
  (36, 0x3078313433340909706f6f09232043414e414449414e2053594c4c414249435320504f4f),
  (43, 0x3078313433350909706f6f09232043414e414449414e2053594c4c414249435320592d4352454520504f4f),
  (44, 0x307831343336090968656509232043414e414449414e2053594c4c4142494353204341525249455220484545),
  (42, 0x3078313433370909686909232043414e414449414e2053594c4c41424943532043415252494552204849),
  (34, 0x3078313433380909706109232043414e414449414e2053594c4c4142494353205041),
  (36, 0x307831343339090970616109232043414e414449414e2053594c4c414249435320504141),
  (36, 0x307831343341090970776509232043414e414449414e2053594c4c414249435320505745),
  (46, 0x307831343342090970776509232043414e414449414e2053594c4c414249435320574553542d4352454520505745),
  (36, 0x307831343343090970776909232043414e414449414e2053594c4c414249435320505749),
  (46, 0x307831343344090970776909232043414e414449414e2053594c4c414249435320574553542d4352454520505749),
  (38, 0x30783134334509097077696909232043414e414449414e2053594c4c41424943532050574949),
  (48, 0x30783134334609097077696909232043414e414449414e2053594c4c414249435320574553542d435245452050574949),
  (0, 0x0),
  (36, 0x307831343430090970776f09232043414e414449414e2053594c4c41424943532050574f),
  (46, 0x307831343431090970776f09232043414e414449414e2053594c4c414249435320574553542d435245452050574f),
  (38, 0x307831343432090970776f6f09232043414e414449414e2053594c4c41424943532050574f4f),
  (48, 0x307831343433090970776f6f09232043414e414449414e2053594c4c414249435320574553542d435245452050574f4f),
  (36, 0x307831343434090970776109232043414e414449414e2053594c4c414249435320505741),
  (46, 0x307831343435090970776109232043414e414449414e2053594c4c414249435320574553542d4352454520505741),
  (38, 0x30783134343609097077616109232043414e414449414e2053594c4c41424943532050574141),
  (48, 0x30783134343709097077616109232043414e414449414e2053594c4c414249435320574553542d435245452050574141)]

/-- Lines 3719-3818 of table/legacy/unidecode.tbl. -/
def legacy_unidecode_39 : List (Nat × Nat) := [
  (45, 0x30783134343809097077616109232043414e414449414e2053594c4c414249435320592d435245452050574141),
  (32, 0x30783134343909097009232043414e414449414e2053594c4c41424943532050),
  (42, 0x30783134344109097009232043414e414449414e2053594c4c414249435320574553542d435245452050),
  (40, 0x30783134344209096809232043414e414449414e2053594c4c414249435320434152524945522048),
  (34, 0x3078313434430909746509232043414e414449414e2053594c4c4142494353205445),
  (38, 0x30783134344409097461616909232043414e414449414e2053594c4c41424943532054414149),
  (34, 0x3078313434450909746909232043414e414449414e2053594c4c4142494353205449),
  (36, 0x307831343446090974696909232043414e414449414e2053594c4c414249435320544949),
  (0, 0x0),
  (34, 0x3078313435300909746f09232043414e414449414e2053594c4c414249435320544f),
  (36, 0x3078313435310909746f6f09232043414e414449414e2053594c4c414249435320544f4f),
  (43, 0x3078313435320909746f6f09232043414e414449414e2053594c4c414249435320592d4352454520544f4f),
  (44, 0x307831343533090964656509232043414e414449414e2053594c4c4142494353204341525249455220444545),
  (42, 0x3078313435340909646909232043414e414449414e2053594c4c41424943532043415252494552204449),
  (34, 0x3078313435350909746109232043414e414449414e2053594c4c4142494353205441),
  (36, 0x307831343536090974616109232043414e414449414e2053594c4c414249435320544141),
  (36, 0x307831343537090974776509232043414e414449414e2053594c4c414249435320545745),
  (46, 0x307831343538090974776509232043414e414449414e2053594c4c414249435320574553542d4352454520545745),
  (36, 0x307831343539090974776909232043414e414449414e2053594c4c414249435320545749),
  (46, 0x307831343541090974776909232043414e414449414e2053594c4c414249435320574553542d4352454520545749),
  (38, 0x30783134354209097477696909232043414e414449414e2053594c4c41424943532054574949),
  (48, 0x30783134354309097477696909232043414e414449414e2053594c4c414249435320574553542d435245452054574949),
  (36, 0x307831343544090974776f09232043414e414449414e2053594c4c41424943532054574f),
  (46, 0x307831343545090974776f09232043414e414449414e2053594c4c414249435320574553542d435245452054574f),
  (38, 0x307831343546090974776f6f09232043414e414449414e2053594c4c41424943532054574f4f),
  (0, 0x0),
  (48, 0x307831343630090974776f6f09232043414e414449414e2053594c4c414249435320574553542d435245452054574f4f),
  (36, 0x307831343631090974776109232043414e414449414e2053594c4c414249435320545741),
  (46, 0x307831343632090974776109232043414e414449414e2053594c4c414249435320574553542d4352454520545741),
  (38, 0x30783134363309097477616109232043414e414449414e2053594c4c41424943532054574141),
  (48, 0x30783134363409097477616109232043414e414449414e2053594c4c414249435320574553542d435245452054574141),
  (46, 0x30783134363509097477616109232043414e414449414e2053594c4c4142494353204e41534b4150492054574141),
  (32, 0x30783134363609097409232043414e414449414e2053594c4c41424943532054),
  (36, 0x307831343637090974746509232043414e414449414e2053594c4c414249435320545445),
  (36, 0x307831343638090974746909232043414e414449414e2053594c4c414249435320545449),
  (36, 0x307831343639090974746f09232043414e414449414e2053594c4c41424943532054544f),
  (36, 0x307831343641090974746109232043414e414449414e2053594c4c414249435320545441),
  (34, 0x30783134364209096b6509232043414e414449414e2053594c4c4142494353204b45),
  (38, 0x30783134364309096b61616909232043414e414449414e2053594c4c4142494353204b414149),
  (34, 0x30783134364409096b6909232043414e414449414e2053594c4c4142494353204b49),
  (36, 0x30783134364509096b696909232043414e414449414e2053594c4c4142494353204b4949),
  (34, 0x30783134364609096b6f09232043414e414449414e2053594c4c4142494353204b4f),
  (0, 0x0),
  (36, 0x30783134373009096b6f6f09232043414e414449414e2053594c4c4142494353204b4f4f),
  (43, 0x30783134373109096b6f6f09232043414e414449414e2053594c4c414249435320592d43524545204b4f4f),
  (34, 0x30783134373209096b6109232043414e414449414e2053594c4c4142494353204b41),
  (36, 0x30783134373309096b616109232043414e414449414e2053594c4c4142494353204b4141),
  (36, 0x30783134373409096b776509232043414e414449414e2053594c4c4142494353204b5745),
  (46, 0x30783134373509096b776509232043414e414449414e2053594c4c414249435320574553542d43524545204b5745),
  (36, 0x30783134373609096b776909232043414e414449414e2053594c4c4142494353204b5749),
  (46, 0x30783134373709096b776909232043414e414449414e2053594c4c414249435320574553542d43524545204b5749),
  (38, 0x30783134373809096b77696909232043414e414449414e2053594c4c4142494353204b574949),
  (48, 0x30783134373909096b77696909232043414e414449414e2053594c4c414249435320574553542d43524545204b574949),
  (36, 0x30783134374109096b776f09232043414e414449414e2053594c4c4142494353204b574f),
  (46, 0x30783134374209096b776f09232043414e414449414e2053594c4c414249435320574553542d43524545204b574f),
  (38, 0x30783134374309096b776f6f09232043414e414449414e2053594c4c4142494353204b574f4f),
  (48, 0x30783134374409096b776f6f09232043414e414449414e2053594c4c414249435320574553542d43524545204b574f4f),
  (36, 0x30783134374509096b776109232043414e414449414e2053594c4c4142494353204b5741),
  (46, 0x30783134374609096b776109232043414e414449414e2053594c4c414249435320574553542d43524545204b5741),
  (0, 0x0),
  (38, 0x30783134383009096b77616109232043414e414449414e2053594c4c4142494353204b574141),
  (48, 0x30783134383109096b77616109232043414e414449414e2053594c4c414249435320574553542d43524545204b574141),
  (46, 0x30783134383209096b77616109232043414e414449414e2053594c4c4142494353204e41534b415049204b574141),
  (32, 0x30783134383309096b09232043414e414449414e2053594c4c4142494353204b),
  (34, 0x30783134383409096b7709232043414e414449414e2053594c4c4142494353204b57),
  (49, 0x30783134383509096b656809232043414e414449414e2053594c4c414249435320534f5554482d534c41564559204b4548),
  (49, 0x30783134383609096b696809232043414e414449414e2053594c4c414249435320534f5554482d534c41564559204b4948),
  (49, 0x30783134383709096b6f6809232043414e414449414e2053594c4c414249435320534f5554482d534c41564559204b4f48),
  (49, 0x30783134383809096b616809232043414e414449414e2053594c4c414249435320534f5554482d534c41564559204b4148),
  (34, 0x3078313438390909636509232043414e414449414e2053594c4c4142494353204345),
  (38, 0x30783134384109096361616909232043414e414449414e2053594c4c41424943532043414149),
  (34, 0x3078313438420909636909232043414e414449414e2053594c4c4142494353204349),
  (36, 0x307831343843090963696909232043414e414449414e2053594c4c414249435320434949),
  (34, 0x3078313438440909636f09232043414e414449414e2053594c4c414249435320434f),
  (36, 0x3078313438450909636f6f09232043414e414449414e2053594c4c414249435320434f4f),
  (43, 0x3078313438460909636f6f09232043414e414449414e2053594c4c414249435320592d4352454520434f4f),
  (0, 0x0),
  (34, 0x3078313439300909636109232043414e414449414e2053594c4c4142494353204341),
  (36, 0x307831343931090963616109232043414e414449414e2053594c4c414249435320434141),
  (36, 0x307831343932090963776509232043414e414449414e2053594c4c414249435320435745),
  (46, 0x307831343933090963776509232043414e414449414e2053594c4c414249435320574553542d4352454520435745),
  (36, 0x307831343934090963776909232043414e414449414e2053594c4c414249435320435749),
  (46, 0x307831343935090963776909232043414e414449414e2053594c4c414249435320574553542d4352454520435749),
  (38, 0x30783134393609096377696909232043414e414449414e2053594c4c41424943532043574949),
  (48, 0x30783134393709096377696909232043414e414449414e2053594c4c414249435320574553542d435245452043574949),
  (36, 0x307831343938090963776f09232043414e414449414e2053594c4c41424943532043574f),
  (46, 0x307831343939090963776f09232043414e414449414e2053594c4c414249435320574553542d435245452043574f),
  (38, 0x307831343941090963776f6f09232043414e414449414e2053594c4c41424943532043574f4f),
  (48, 0x307831343942090963776f6f09232043414e414449414e2053594c4c414249435320574553542d435245452043574f4f),
  (36, 0x307831343943090963776109232043414e414449414e2053594c4c414249435320435741),
  (46, 0x307831343944090963776109232043414e414449414e2053594c4c414249435320574553542d4352454520435741),
  (38, 0x30783134394509096377616109232043414e414449414e2053594c4c41424943532043574141),
  (48, 0x30783134394609096377616109232043414e414449414e2053594c4c414249435320574553542d435245452043574141),
  (0, 0x0),
  (46, 0x30783134413009096377616109232043414e414449414e2053594c4c4142494353204e41534b4150492043574141),
  (32, 0x30783134413109096309232043414e414449414e2053594c4c41424943532043),
  (41, 0x3078313441320909746809232043414e414449414e2053594c4c414249435320534159495349205448),
  (34, 0x30783134413309096d6509232043414e414449414e2053594c4c4142494353204d45),
  (38, 0x30783134413409096d61616909232043414e414449414e2053594c4c4142494353204d414149),
  (34, 0x30783134413509096d6909232043414e414449414e2053594c4c4142494353204d49)]

/-- Lines 3819-3918 of table/legacy/unidecode.tbl. -/
def legacy_unidecode_40 : List (Nat × Nat) := [
  (36, 0x30783134413609096d696909232043414e414449414e2053594c4c4142494353204d4949),
  (34, 0x30783134413709096d6f09232043414e414449414e2053594c4c4142494353204d4f),
  (36, 0x30783134413809096d6f6f09232043414e414449414e2053594c4c4142494353204d4f4f),
  (43, 0x30783134413909096d6f6f09232043414e414449414e2053594c4c414249435320592d43524545204d4f4f),
  (34, 0x30783134414109096d6109232043414e414449414e2053594c4c4142494353204d41),
  (36, 0x30783134414209096d616109232043414e414449414e2053594c4c4142494353204d4141),
  (36, 0x30783134414309096d776509232043414e414449414e2053594c4c4142494353204d5745),
  (46, 0x30783134414409096d776509232043414e414449414e2053594c4c414249435320574553542d43524545204d5745),
  (36, 0x30783134414509096d776909232043414e414449414e2053594c4c4142494353204d5749),
  (46, 0x30783134414609096d776909232043414e414449414e2053594c4c414249435320574553542d43524545204d5749),
  (0, 0x0),
  (38, 0x30783134423009096d77696909232043414e414449414e2053594c4c4142494353204d574949),
  (48, 0x30783134423109096d77696909232043414e414449414e2053594c4c414249435320574553542d43524545204d574949),
  (36, 0x30783134423209096d776f09232043414e414449414e2053594c4c4142494353204d574f),
  (46, 0x30783134423309096d776f09232043414e414449414e2053594c4c414249435320574553542d43524545204d574f),
  (38, 0x30783134423409096d776f6f09232043414e414449414e2053594c4c4142494353204d574f4f),
  (48, 0x30783134423509096d776f6f09232043414e414449414e2053594c4c414249435320574553542d43524545204d574f4f),
  (36, 0x30783134423609096d776109232043414e414449414e2053594c4c4142494353204d5741),
  (46, 0x30783134423709096d776109232043414e414449414e2053594c4c414249435320574553542d43524545204d5741),
  (38, 0x30783134423809096d77616109232043414e414449414e2053594c4c4142494353204d574141),
  (48, 0x30783134423909096d77616109232043414e414449414e2053594c4c414249435320574553542d43524545204d574141),
  (46, 0x30783134424109096d77616109232043414e414449414e2053594c4c4142494353204e41534b415049204d574141),
  (32, 0x30783134424209096d09232043414e414449414e2053594c4c4142494353204d),
  (42, 0x30783134424309096d09232043414e414449414e2053594c4c414249435320574553542d43524545204d),
  (34, 0x30783134424409096d6809232043414e414449414e2053594c4c4142494353204d48),
  (43, 0x30783134424509096d09232043414e414449414e2053594c4c4142494353204154484150415343414e204d),
  (39, 0x30783134424609096d09232043414e414449414e2053594c4c414249435320534159495349204d),
  (0, 0x0),
  (34, 0x30783134433009096e6509232043414e414449414e2053594c4c4142494353204e45),
  (38, 0x30783134433109096e61616909232043414e414449414e2053594c4c4142494353204e414149),
  (34, 0x30783134433209096e6909232043414e414449414e2053594c4c4142494353204e49),
  (36, 0x30783134433309096e696909232043414e414449414e2053594c4c4142494353204e4949),
  (34, 0x30783134433409096e6f09232043414e414449414e2053594c4c4142494353204e4f),
  (36, 0x30783134433509096e6f6f09232043414e414449414e2053594c4c4142494353204e4f4f),
  (43, 0x30783134433609096e6f6f09232043414e414449414e2053594c4c414249435320592d43524545204e4f4f),
  (34, 0x30783134433709096e6109232043414e414449414e2053594c4c4142494353204e41),
  (36, 0x30783134433809096e616109232043414e414449414e2053594c4c4142494353204e4141),
  (36, 0x30783134433909096e776509232043414e414449414e2053594c4c4142494353204e5745),
  (46, 0x30783134434109096e776509232043414e414449414e2053594c4c414249435320574553542d43524545204e5745),
  (36, 0x30783134434209096e776109232043414e414449414e2053594c4c4142494353204e5741),
  (46, 0x30783134434309096e776109232043414e414449414e2053594c4c414249435320574553542d43524545204e5741),
  (38, 0x30783134434409096e77616109232043414e414449414e2053594c4c4142494353204e574141),
  (48, 0x30783134434509096e77616109232043414e414449414e2053594c4c414249435320574553542d43524545204e574141),
  (46, 0x30783134434609096e77616109232043414e414449414e2053594c4c4142494353204e41534b415049204e574141),
  (0, 0x0),
  (32, 0x30783134443009096e09232043414e414449414e2053594c4c4142494353204e),
  (42, 0x30783134443109096e6709232043414e414449414e2053594c4c41424943532043415252494552204e47),
  (34, 0x30783134443209096e6809232043414e414449414e2053594c4c4142494353204e48),
  (34, 0x30783134443309096c6509232043414e414449414e2053594c4c4142494353204c45),
  (38, 0x30783134443409096c61616909232043414e414449414e2053594c4c4142494353204c414149),
  (34, 0x30783134443509096c6909232043414e414449414e2053594c4c4142494353204c49),
  (36, 0x30783134443609096c696909232043414e414449414e2053594c4c4142494353204c4949),
  (34, 0x30783134443709096c6f09232043414e414449414e2053594c4c4142494353204c4f),
  (36, 0x30783134443809096c6f6f09232043414e414449414e2053594c4c4142494353204c4f4f),
  (43, 0x30783134443909096c6f6f09232043414e414449414e2053594c4c414249435320592d43524545204c4f4f),
  (34, 0x30783134444109096c6109232043414e414449414e2053594c4c4142494353204c41),
  (36, 0x30783134444209096c616109232043414e414449414e2053594c4c4142494353204c4141),
  (36, 0x30783134444309096c776509232043414e414449414e2053594c4c4142494353204c5745),
  (46, 0x30783134444409096c776509232043414e414449414e2053594c4c414249435320574553542d43524545204c5745),
  (36, 0x30783134444509096c776909232043414e414449414e2053594c4c4142494353204c5749),
  (46, 0x30783134444609096c776909232043414e414449414e2053594c4c414249435320574553542d43524545204c5749),
  (0, 0x0),
  (38, 0x30783134453009096c77696909232043414e414449414e2053594c4c4142494353204c574949),
  (48, 0x30783134453109096c77696909232043414e414449414e2053594c4c414249435320574553542d43524545204c574949),
  (36, 0x30783134453209096c776f09232043414e414449414e2053594c4c4142494353204c574f),
  (46, 0x30783134453309096c776f09232043414e414449414e2053594c4c414249435320574553542d43524545204c574f),
  (38, 0x30783134453409096c776f6f09232043414e414449414e2053594c4c4142494353204c574f4f),
  (48, 0x30783134453509096c776f6f09232043414e414449414e2053594c4c414249435320574553542d43524545204c574f4f),
  (36, 0x30783134453609096c776109232043414e414449414e2053594c4c4142494353204c5741),
  (46, 0x30783134453709096c776109232043414e414449414e2053594c4c414249435320574553542d43524545204c5741),
  (38, 0x30783134453809096c77616109232043414e414449414e2053594c4c4142494353204c574141),
  (48, 0x30783134453909096c77616109232043414e414449414e2053594c4c414249435320574553542d43524545204c574141),
  (32, 0x30783134454109096c09232043414e414449414e2053594c4c4142494353204c),
  (42, 0x30783134454209096c09232043414e414449414e2053594c4c414249435320574553542d43524545204c),
  (39, 0x30783134454309096c09232043414e414449414e2053594c4c4142494353204d454449414c204c),
  (34, 0x3078313445440909736509232043414e414449414e2053594c4c4142494353205345),
  (38, 0x30783134454509097361616909232043414e414449414e2053594c4c41424943532053414149),
  (34, 0x3078313445460909736909232043414e414449414e2053594c4c4142494353205349),
  (0, 0x0),
  (36, 0x307831344630090973696909232043414e414449414e2053594c4c414249435320534949),
  (34, 0x3078313446310909736f09232043414e414449414e2053594c4c414249435320534f),
  (36, 0x3078313446320909736f6f09232043414e414449414e2053594c4c414249435320534f4f),
  (43, 0x3078313446330909736f6f09232043414e414449414e2053594c4c414249435320592d4352454520534f4f),
  (34, 0x3078313446340909736109232043414e414449414e2053594c4c4142494353205341),
  (36, 0x307831344635090973616109232043414e414449414e2053594c4c414249435320534141),
  (36, 0x307831344636090973776509232043414e414449414e2053594c4c414249435320535745),
  (46, 0x307831344637090973776509232043414e414449414e2053594c4c414249435320574553542d4352454520535745),
  (36, 0x307831344638090973776909232043414e414449414e2053594c4c414249435320535749),
  (46, 0x307831344639090973776909232043414e414449414e2053594c4c414249435320574553542d4352454520535749),
  (38, 0x30783134464109097377696909232043414e414449414e2053594c4c41424943532053574949),
  (48, 0x30783134464209097377696909232043414e414449414e2053594c4c414249435320574553542d435245452053574949),
  (36, 0x307831344643090973776f09232043414e414449414e2053594c4c41424943532053574f),
  (46, 0x307831344644090973776f09232043414e414449414e2053594c4c414249435320574553542d435245452053574f),
  (38, 0x307831344645090973776f6f09232043414e414449414e2053594c4c41424943532053574f4f),
  (48, 0x307831344646090973776f6f09232043414e414449414e2053594c4c414249435320574553542d435245452053574f4f),
  (0, 0x0),
  (1, 0x23),
  (29, 0x2320436861726163746572732030783135303020746f20307831354646),
  (1, 0x23),
  (0, 0x0)]

/-- Lines 3919-4018 of table/legacy/unidecode.tbl. -/
def legacy_unidecode_41 : List (Nat × Nat) := [
  (36, 0x307831353030090973776109232043414e414449414e2053594c4c414249435320535741),
  (46, 0x307831353031090973776109232043414e414449414e2053594c4c414249435320574553542d4352454520535741),
  (38, 0x30783135303209097377616109232043414e414449414e2053594c4c41424943532053574141),
  (48, 0x30783135303309097377616109232043414e414449414e2053594c4c414249435320574553542d435245452053574141),
  (46, 0x30783135303409097377616109232043414e414449414e2053594c4c4142494353204e41534b4150492053574141),
  (32, 0x30783135303509097309232043414e414449414e2053594c4c41424943532053),
  (43, 0x30783135303609097309232043414e414449414e2053594c4c4142494353204154484150415343414e2053),
  (34, 0x3078313530370909737709232043414e414449414e2053594c4c4142494353205357),
  (42, 0x30783135303809097309232043414e414449414e2053594c4c414249435320424c41434b464f4f542053),
  (45, 0x3078313530390909736b09232043414e414449414e2053594c4c4142494353204d4f4f53452d4352454520534b),
  (44, 0x3078313530410909736b7709232043414e414449414e2053594c4c4142494353204e41534b41504920534b57),
  (43, 0x3078313530420909735709232043414e414449414e2053594c4c4142494353204e41534b41504920532d57),
  (46, 0x30783135304309097370776109232043414e414449414e2053594c4c4142494353204e41534b4150492053505741),
  (46, 0x30783135304409097374776109232043414e414449414e2053594c4c4142494353204e41534b4150492053545741),
  (46, 0x3078313530450909736b776109232043414e414449414e2053594c4c4142494353204e41534b41504920534b5741),
  (46, 0x30783135304609097363776109232043414e414449414e2053594c4c4142494353204e41534b4150492053435741),
  (0, 0x0),
  (36, 0x307831353130090973686509232043414e414449414e2053594c4c414249435320534845),
  (36, 0x307831353131090973686909232043414e414449414e2053594c4c414249435320534849),
  (38, 0x30783135313209097368696909232043414e414449414e2053594c4c41424943532053484949),
  (36, 0x307831353133090973686f09232043414e414449414e2053594c4c41424943532053484f),
  (38, 0x307831353134090973686f6f09232043414e414449414e2053594c4c41424943532053484f4f),
  (36, 0x307831353135090973686109232043414e414449414e2053594c4c414249435320534841),
  (38, 0x30783135313609097368616109232043414e414449414e2053594c4c41424943532053484141),
  (38, 0x30783135313709097368776509232043414e414449414e2053594c4c41424943532053485745),
  (48, 0x30783135313809097368776509232043414e414449414e2053594c4c414249435320574553542d435245452053485745),
  (38, 0x30783135313909097368776909232043414e414449414e2053594c4c41424943532053485749),
  (48, 0x30783135314109097368776909232043414e414449414e2053594c4c414249435320574553542d435245452053485749),
  (40, 0x3078313531420909736877696909232043414e414449414e2053594c4c4142494353205348574949),
  (50, 0x3078313531430909736877696909232043414e414449414e2053594c4c414249435320574553542d43524545205348574949),
  (38, 0x30783135314409097368776f09232043414e414449414e2053594c4c4142494353205348574f),
  (48, 0x30783135314509097368776f09232043414e414449414e2053594c4c414249435320574553542d43524545205348574f),
  (40, 0x30783135314609097368776f6f09232043414e414449414e2053594c4c4142494353205348574f4f),
  (0, 0x0),
  (50, 0x30783135323009097368776f6f09232043414e414449414e2053594c4c414249435320574553542d43524545205348574f4f),
  (38, 0x30783135323109097368776109232043414e414449414e2053594c4c41424943532053485741),
  (48, 0x30783135323209097368776109232043414e414449414e2053594c4c414249435320574553542d435245452053485741),
  (40, 0x3078313532330909736877616109232043414e414449414e2053594c4c4142494353205348574141),
  (50, 0x3078313532340909736877616109232043414e414449414e2053594c4c414249435320574553542d43524545205348574141),
  (34, 0x3078313532350909736809232043414e414449414e2053594c4c4142494353205348),
  (34, 0x3078313532360909796509232043414e414449414e2053594c4c4142494353205945),
  (38, 0x30783135323709097961616909232043414e414449414e2053594c4c41424943532059414149),
  (34, 0x3078313532380909796909232043414e414449414e2053594c4c4142494353205949),
  (36, 0x307831353239090979696909232043414e414449414e2053594c4c414249435320594949),
  (34, 0x3078313532410909796f09232043414e414449414e2053594c4c414249435320594f),
  (36, 0x3078313532420909796f6f09232043414e414449414e2053594c4c414249435320594f4f),
  (43, 0x3078313532430909796f6f09232043414e414449414e2053594c4c414249435320592d4352454520594f4f),
  (34, 0x3078313532440909796109232043414e414449414e2053594c4c4142494353205941),
  (36, 0x307831353245090979616109232043414e414449414e2053594c4c414249435320594141),
  (36, 0x307831353246090979776509232043414e414449414e2053594c4c414249435320595745),
  (0, 0x0),
  (46, 0x307831353330090979776509232043414e414449414e2053594c4c414249435320574553542d4352454520595745),
  (36, 0x307831353331090979776909232043414e414449414e2053594c4c414249435320595749),
  (46, 0x307831353332090979776909232043414e414449414e2053594c4c414249435320574553542d4352454520595749),
  (38, 0x30783135333309097977696909232043414e414449414e2053594c4c41424943532059574949),
  (48, 0x30783135333409097977696909232043414e414449414e2053594c4c414249435320574553542d435245452059574949),
  (36, 0x307831353335090979776f09232043414e414449414e2053594c4c41424943532059574f),
  (46, 0x307831353336090979776f09232043414e414449414e2053594c4c414249435320574553542d435245452059574f),
  (38, 0x307831353337090979776f6f09232043414e414449414e2053594c4c41424943532059574f4f),
  (48, 0x307831353338090979776f6f09232043414e414449414e2053594c4c414249435320574553542d435245452059574f4f),
  (36, 0x307831353339090979776109232043414e414449414e2053594c4c414249435320595741),
  (46, 0x307831353341090979776109232043414e414449414e2053594c4c414249435320574553542d4352454520595741),
  (38, 0x30783135334209097977616109232043414e414449414e2053594c4c41424943532059574141),
  (48, 0x30783135334309097977616109232043414e414449414e2053594c4c414249435320574553542d435245452059574141),
  (46, 0x30783135334409097977616109232043414e414449414e2053594c4c4142494353204e41534b4150492059574141),
  (32, 0x30783135334509097909232043414e414449414e2053594c4c41424943532059),
  (43, 0x30783135334609097909232043414e414449414e2053594c4c4142494353204249424c452d435245452059),
  (0, 0x0),
  (42, 0x30783135343009097909232043414e414449414e2053594c4c414249435320574553542d435245452059),
  (41, 0x3078313534310909796909232043414e414449414e2053594c4c414249435320534159495349205949),
  (34, 0x3078313534320909726509232043414e414449414e2053594c4c4142494353205245),
  (41, 0x3078313534330909726509232043414e414449414e2053594c4c414249435320522d43524545205245),
  (44, 0x30783135343409096c6509232043414e414449414e2053594c4c414249435320574553542d43524545204c45),
  (38, 0x30783135343509097261616909232043414e414449414e2053594c4c41424943532052414149),
  (34, 0x3078313534360909726909232043414e414449414e2053594c4c4142494353205249),
  (36, 0x307831353437090972696909232043414e414449414e2053594c4c414249435320524949),
  (34, 0x3078313534380909726f09232043414e414449414e2053594c4c414249435320524f),
  (36, 0x3078313534390909726f6f09232043414e414449414e2053594c4c414249435320524f4f),
  (44, 0x30783135344109096c6f09232043414e414449414e2053594c4c414249435320574553542d43524545204c4f),
  (34, 0x3078313534420909726109232043414e414449414e2053594c4c4142494353205241),
  (36, 0x307831353443090972616109232043414e414449414e2053594c4c414249435320524141),
  (44, 0x30783135344409096c6109232043414e414449414e2053594c4c414249435320574553542d43524545204c41),
  (38, 0x30783135344509097277616109232043414e414449414e2053594c4c41424943532052574141),
  (48, 0x30783135344609097277616109232043414e414449414e2053594c4c414249435320574553542d435245452052574141),
  (0, 0x0),
  (32, 0x30783135353009097209232043414e414449414e2053594c4c41424943532052),
  (42, 0x30783135353109097209232043414e414449414e2053594c4c414249435320574553542d435245452052),
  (39, 0x30783135353209097209232043414e414449414e2053594c4c4142494353204d454449414c2052),
  (34, 0x3078313535330909666509232043414e414449414e2053594c4c4142494353204645),
  (38, 0x30783135353409096661616909232043414e414449414e2053594c4c41424943532046414149),
  (34, 0x3078313535350909666909232043414e414449414e2053594c4c4142494353204649),
  (36, 0x307831353536090966696909232043414e414449414e2053594c4c414249435320464949),
  (34, 0x3078313535370909666f09232043414e414449414e2053594c4c414249435320464f),
  (36, 0x3078313535380909666f6f09232043414e414449414e2053594c4c414249435320464f4f),
  (34, 0x3078313535390909666109232043414e414449414e2053594c4c4142494353204641),
  (36, 0x307831353541090966616109232043414e414449414e2053594c4c414249435320464141),
  (38, 0x30783135354209096677616109232043414e414449414e2053594c4c41424943532046574141),
  (48, 0x30783135354309096677616109232043414e414449414e2053594c4c414249435320574553542d435245452046574141),
  (32, 0x30783135354409096609232043414e414449414e2053594c4c41424943532046),
  (36, 0x307831353545090974686509232043414e414449414e2053594c4c414249435320544845)]

/-- Lines 4019-4118 of table/legacy/unidecode.tbl. -/
def legacy_unidecode_42 : List (Nat × Nat) := [
  (43, 0x307831353546090974686509232043414e414449414e2053594c4c4142494353204e2d4352454520544845),
  (0, 0x0),
  (36, 0x307831353630090974686909232043414e414449414e2053594c4c414249435320544849),
  (43, 0x307831353631090974686909232043414e414449414e2053594c4c4142494353204e2d4352454520544849),
  (38, 0x30783135363209097468696909232043414e414449414e2053594c4c41424943532054484949),
  (45, 0x30783135363309097468696909232043414e414449414e2053594c4c4142494353204e2d435245452054484949),
  (36, 0x307831353634090974686f09232043414e414449414e2053594c4c41424943532054484f),
  (38, 0x307831353635090974686f6f09232043414e414449414e2053594c4c41424943532054484f4f),
  (36, 0x307831353636090974686109232043414e414449414e2053594c4c414249435320544841),
  (38, 0x30783135363709097468616109232043414e414449414e2053594c4c41424943532054484141),
  (40, 0x3078313536380909746877616109232043414e414449414e2053594c4c4142494353205448574141),
  (50, 0x3078313536390909746877616109232043414e414449414e2053594c4c414249435320574553542d43524545205448574141),
  (34, 0x3078313536410909746809232043414e414449414e2053594c4c4142494353205448),
  (38, 0x30783135364209097474686509232043414e414449414e2053594c4c41424943532054544845),
  (38, 0x30783135364309097474686909232043414e414449414e2053594c4c41424943532054544849),
  (38, 0x30783135364409097474686f09232043414e414449414e2053594c4c4142494353205454484f),
  (38, 0x30783135364509097474686109232043414e414449414e2053594c4c41424943532054544841),
  (36, 0x307831353646090974746809232043414e414449414e2053594c4c414249435320545448),
  (0, 0x0),
  (36, 0x307831353730090974796509232043414e414449414e2053594c4c414249435320545945),
  (36, 0x307831353731090974796909232043414e414449414e2053594c4c414249435320545949),
  (36, 0x307831353732090974796f09232043414e414449414e2053594c4c41424943532054594f),
  (36, 0x307831353733090974796109232043414e414449414e2053594c4c414249435320545941),
  (42, 0x3078313537340909686509232043414e414449414e2053594c4c4142494353204e554e4156494b204845),
  (42, 0x3078313537350909686909232043414e414449414e2053594c4c4142494353204e554e4156494b204849),
  (44, 0x307831353736090968696909232043414e414449414e2053594c4c4142494353204e554e4156494b20484949),
  (42, 0x3078313537370909686f09232043414e414449414e2053594c4c4142494353204e554e4156494b20484f),
  (44, 0x3078313537380909686f6f09232043414e414449414e2053594c4c4142494353204e554e4156494b20484f4f),
  (42, 0x3078313537390909686109232043414e414449414e2053594c4c4142494353204e554e4156494b204841),
  (44, 0x307831353741090968616109232043414e414449414e2053594c4c4142494353204e554e4156494b20484141),
  (40, 0x30783135374209096809232043414e414449414e2053594c4c4142494353204e554e4156494b2048),
  (40, 0x30783135374309096809232043414e414449414e2053594c4c4142494353204e554e415655542048),
  (34, 0x3078313537440909686b09232043414e414449414e2053594c4c414249435320484b),
  (38, 0x30783135374509097161616909232043414e414449414e2053594c4c41424943532051414149),
  (34, 0x3078313537460909716909232043414e414449414e2053594c4c4142494353205149),
  (0, 0x0),
  (36, 0x307831353830090971696909232043414e414449414e2053594c4c414249435320514949),
  (34, 0x3078313538310909716f09232043414e414449414e2053594c4c414249435320514f),
  (36, 0x3078313538320909716f6f09232043414e414449414e2053594c4c414249435320514f4f),
  (34, 0x3078313538330909716109232043414e414449414e2053594c4c4142494353205141),
  (36, 0x307831353834090971616109232043414e414449414e2053594c4c414249435320514141),
  (32, 0x30783135383509097109232043414e414449414e2053594c4c41424943532051),
  (38, 0x3078313538360909746c686509232043414e414449414e2053594c4c414249435320544c4845),
  (38, 0x3078313538370909746c686909232043414e414449414e2053594c4c414249435320544c4849),
  (38, 0x3078313538380909746c686f09232043414e414449414e2053594c4c414249435320544c484f),
  (38, 0x3078313538390909746c686109232043414e414449414e2053594c4c414249435320544c4841),
  (44, 0x3078313538410909726509232043414e414449414e2053594c4c414249435320574553542d43524545205245),
  (44, 0x3078313538420909726909232043414e414449414e2053594c4c414249435320574553542d43524545205249),
  (44, 0x3078313538430909726f09232043414e414449414e2053594c4c414249435320574553542d4352454520524f),
  (44, 0x3078313538440909726109232043414e414449414e2053594c4c414249435320574553542d43524545205241),
  (40, 0x30783135384509096e6761616909232043414e414449414e2053594c4c4142494353204e47414149),
  (36, 0x30783135384609096e676909232043414e414449414e2053594c4c4142494353204e4749),
  (0, 0x0),
  (38, 0x30783135393009096e67696909232043414e414449414e2053594c4c4142494353204e474949),
  (36, 0x30783135393109096e676f09232043414e414449414e2053594c4c4142494353204e474f),
  (38, 0x30783135393209096e676f6f09232043414e414449414e2053594c4c4142494353204e474f4f),
  (36, 0x30783135393309096e676109232043414e414449414e2053594c4c4142494353204e4741),
  (38, 0x30783135393409096e67616109232043414e414449414e2053594c4c4142494353204e474141),
  (34, 0x30783135393509096e6709232043414e414449414e2053594c4c4142494353204e47),
  (36, 0x30783135393609096e6e6709232043414e414449414e2053594c4c4142494353204e4e47),
  (43, 0x307831353937090973686509232043414e414449414e2053594c4c41424943532053415949534920534845),
  (43, 0x307831353938090973686909232043414e414449414e2053594c4c41424943532053415949534920534849),
  (43, 0x307831353939090973686f09232043414e414449414e2053594c4c4142494353205341594953492053484f),
  (43, 0x307831353941090973686109232043414e414449414e2053594c4c41424943532053415949534920534841),
  (47, 0x307831353942090974686509232043414e414449414e2053594c4c414249435320574f4f44532d4352454520544845),
  (47, 0x307831353943090974686909232043414e414449414e2053594c4c414249435320574f4f44532d4352454520544849),
  (47, 0x307831353944090974686f09232043414e414449414e2053594c4c414249435320574f4f44532d435245452054484f),
  (47, 0x307831353945090974686109232043414e414449414e2053594c4c414249435320574f4f44532d4352454520544841),
  (45, 0x3078313539460909746809232043414e414449414e2053594c4c414249435320574f4f44532d43524545205448),
  (0, 0x0),
  (36, 0x30783135413009096c686909232043414e414449414e2053594c4c4142494353204c4849),
  (38, 0x30783135413109096c68696909232043414e414449414e2053594c4c4142494353204c484949),
  (36, 0x30783135413209096c686f09232043414e414449414e2053594c4c4142494353204c484f),
  (38, 0x30783135413309096c686f6f09232043414e414449414e2053594c4c4142494353204c484f4f),
  (36, 0x30783135413409096c686109232043414e414449414e2053594c4c4142494353204c4841),
  (38, 0x30783135413509096c68616109232043414e414449414e2053594c4c4142494353204c484141),
  (34, 0x30783135413609096c6809232043414e414449414e2053594c4c4142494353204c48),
  (44, 0x307831354137090974686509232043414e414449414e2053594c4c41424943532054482d4352454520544845),
  (44, 0x307831354138090974686909232043414e414449414e2053594c4c41424943532054482d4352454520544849),
  (46, 0x30783135413909097468696909232043414e414449414e2053594c4c41424943532054482d435245452054484949),
  (44, 0x307831354141090974686f09232043414e414449414e2053594c4c41424943532054482d435245452054484f),
  (46, 0x307831354142090974686f6f09232043414e414449414e2053594c4c41424943532054482d435245452054484f4f),
  (44, 0x307831354143090974686109232043414e414449414e2053594c4c41424943532054482d4352454520544841),
  (46, 0x30783135414409097468616109232043414e414449414e2053594c4c41424943532054482d435245452054484141),
  (42, 0x3078313541450909746809232043414e414449414e2053594c4c41424943532054482d43524545205448),
  (40, 0x30783135414609096209232043414e414449414e2053594c4c414249435320414956494c494b2042),
  (0, 0x0),
  (42, 0x30783135423009096509232043414e414449414e2053594c4c414249435320424c41434b464f4f542045),
  (42, 0x30783135423109096909232043414e414449414e2053594c4c414249435320424c41434b464f4f542049),
  (42, 0x30783135423209096f09232043414e414449414e2053594c4c414249435320424c41434b464f4f54204f),
  (42, 0x30783135423309096109232043414e414449414e2053594c4c414249435320424c41434b464f4f542041),
  (44, 0x3078313542340909776509232043414e414449414e2053594c4c414249435320424c41434b464f4f54205745),
  (44, 0x3078313542350909776909232043414e414449414e2053594c4c414249435320424c41434b464f4f54205749),
  (44, 0x3078313542360909776f09232043414e414449414e2053594c4c414249435320424c41434b464f4f5420574f),
  (44, 0x3078313542370909776109232043414e414449414e2053594c4c414249435320424c41434b464f4f54205741),
  (44, 0x30783135423809096e6509232043414e414449414e2053594c4c414249435320424c41434b464f4f54204e45),
  (44, 0x30783135423909096e6909232043414e414449414e2053594c4c414249435320424c41434b464f4f54204e49),
  (44, 0x30783135424109096e6f09232043414e414449414e2053594c4c414249435320424c41434b464f4f54204e4f),
  (44, 0x30783135424209096e6109232043414e414449414e2053594c4c414249435320424c41434b464f4f54204e41),
  (44, 0x30783135424309096b6509232043414e414449414e2053594c4c414249435320424c41434b464f4f54204b45)]

/-- Lines 4119-4218 of table/legacy/unidecode.tbl. -/
def legacy_unidecode_43 : List (Nat × Nat) := [
  (44, 0x30783135424409096b6909232043414e414449414e2053594c4c414249435320424c41434b464f4f54204b49),
  (44, 0x30783135424509096b6f09232043414e414449414e2053594c4c414249435320424c41434b464f4f54204b4f),
  (44, 0x30783135424609096b6109232043414e414449414e2053594c4c414249435320424c41434b464f4f54204b41),
  (0, 0x0),
  (41, 0x3078313543300909686509232043414e414449414e2053594c4c414249435320534159495349204845),
  (41, 0x3078313543310909686909232043414e414449414e2053594c4c414249435320534159495349204849),
  (41, 0x3078313543320909686f09232043414e414449414e2053594c4c41424943532053415949534920484f),
  (41, 0x3078313543330909686109232043414e414449414e2053594c4c414249435320534159495349204841),
  (44, 0x307831354334090967687509232043414e414449414e2053594c4c4142494353204341525249455220474855),
  (44, 0x307831354335090967686f09232043414e414449414e2053594c4c414249435320434152524945522047484f),
  (44, 0x307831354336090967686509232043414e414449414e2053594c4c4142494353204341525249455220474845),
  (46, 0x30783135433709096768656509232043414e414449414e2053594c4c414249435320434152524945522047484545),
  (44, 0x307831354338090967686909232043414e414449414e2053594c4c4142494353204341525249455220474849),
  (44, 0x307831354339090967686109232043414e414449414e2053594c4c4142494353204341525249455220474841),
  (42, 0x3078313543410909727509232043414e414449414e2053594c4c41424943532043415252494552205255),
  (42, 0x3078313543420909726f09232043414e414449414e2053594c4c4142494353204341525249455220524f),
  (42, 0x3078313543430909726509232043414e414449414e2053594c4c41424943532043415252494552205245),
  (44, 0x307831354344090972656509232043414e414449414e2053594c4c4142494353204341525249455220524545),
  (42, 0x3078313543450909726909232043414e414449414e2053594c4c41424943532043415252494552205249),
  (42, 0x3078313543460909726109232043414e414449414e2053594c4c41424943532043415252494552205241),
  (0, 0x0),
  (42, 0x3078313544300909777509232043414e414449414e2053594c4c41424943532043415252494552205755),
  (42, 0x3078313544310909776f09232043414e414449414e2053594c4c4142494353204341525249455220574f),
  (42, 0x3078313544320909776509232043414e414449414e2053594c4c41424943532043415252494552205745),
  (44, 0x307831354433090977656509232043414e414449414e2053594c4c4142494353204341525249455220574545),
  (42, 0x3078313544340909776909232043414e414449414e2053594c4c41424943532043415252494552205749),
  (42, 0x3078313544350909776109232043414e414449414e2053594c4c41424943532043415252494552205741),
  (44, 0x307831354436090968777509232043414e414449414e2053594c4c4142494353204341525249455220485755),
  (44, 0x307831354437090968776f09232043414e414449414e2053594c4c414249435320434152524945522048574f),
  (44, 0x307831354438090968776509232043414e414449414e2053594c4c4142494353204341525249455220485745),
  (46, 0x30783135443909096877656509232043414e414449414e2053594c4c414249435320434152524945522048574545),
  (44, 0x307831354441090968776909232043414e414449414e2053594c4c4142494353204341525249455220485749),
  (44, 0x307831354442090968776109232043414e414449414e2053594c4c4142494353204341525249455220485741),
  (44, 0x307831354443090974687509232043414e414449414e2053594c4c4142494353204341525249455220544855),
  (44, 0x307831354444090974686f09232043414e414449414e2053594c4c414249435320434152524945522054484f),
  (44, 0x307831354445090974686509232043414e414449414e2053594c4c4142494353204341525249455220544845),
  (46, 0x30783135444609097468656509232043414e414449414e2053594c4c414249435320434152524945522054484545),
  (0, 0x0),
  (44, 0x307831354530090974686909232043414e414449414e2053594c4c4142494353204341525249455220544849),
  (44, 0x307831354531090974686109232043414e414449414e2053594c4c4142494353204341525249455220544841),
  (44, 0x307831354532090974747509232043414e414449414e2053594c4c4142494353204341525249455220545455),
  (44, 0x307831354533090974746f09232043414e414449414e2053594c4c414249435320434152524945522054544f),
  (44, 0x307831354534090974746509232043414e414449414e2053594c4c4142494353204341525249455220545445),
  (46, 0x30783135453509097474656509232043414e414449414e2053594c4c414249435320434152524945522054544545),
  (44, 0x307831354536090974746909232043414e414449414e2053594c4c4142494353204341525249455220545449),
  (44, 0x307831354537090974746109232043414e414449414e2053594c4c4142494353204341525249455220545441),
  (42, 0x3078313545380909707509232043414e414449414e2053594c4c41424943532043415252494552205055),
  (42, 0x3078313545390909706f09232043414e414449414e2053594c4c4142494353204341525249455220504f),
  (42, 0x3078313545410909706509232043414e414449414e2053594c4c41424943532043415252494552205045),
  (44, 0x307831354542090970656509232043414e414449414e2053594c4c4142494353204341525249455220504545),
  (42, 0x3078313545430909706909232043414e414449414e2053594c4c41424943532043415252494552205049),
  (42, 0x3078313545440909706109232043414e414449414e2053594c4c41424943532043415252494552205041),
  (40, 0x30783135454509097009232043414e414449414e2053594c4c414249435320434152524945522050),
  (42, 0x3078313545460909677509232043414e414449414e2053594c4c41424943532043415252494552204755),
  (0, 0x0),
  (42, 0x3078313546300909676f09232043414e414449414e2053594c4c4142494353204341525249455220474f),
  (42, 0x3078313546310909676509232043414e414449414e2053594c4c41424943532043415252494552204745),
  (44, 0x307831354632090967656509232043414e414449414e2053594c4c4142494353204341525249455220474545),
  (42, 0x3078313546330909676909232043414e414449414e2053594c4c41424943532043415252494552204749),
  (42, 0x3078313546340909676109232043414e414449414e2053594c4c41424943532043415252494552204741),
  (44, 0x30783135463509096b687509232043414e414449414e2053594c4c41424943532043415252494552204b4855),
  (44, 0x30783135463609096b686f09232043414e414449414e2053594c4c41424943532043415252494552204b484f),
  (44, 0x30783135463709096b686509232043414e414449414e2053594c4c41424943532043415252494552204b4845),
  (46, 0x30783135463809096b68656509232043414e414449414e2053594c4c41424943532043415252494552204b484545),
  (44, 0x30783135463909096b686909232043414e414449414e2053594c4c41424943532043415252494552204b4849),
  (44, 0x30783135464109096b686109232043414e414449414e2053594c4c41424943532043415252494552204b4841),
  (44, 0x30783135464209096b6b7509232043414e414449414e2053594c4c41424943532043415252494552204b4b55),
  (44, 0x30783135464309096b6b6f09232043414e414449414e2053594c4c41424943532043415252494552204b4b4f),
  (44, 0x30783135464409096b6b6509232043414e414449414e2053594c4c41424943532043415252494552204b4b45),
  (46, 0x30783135464509096b6b656509232043414e414449414e2053594c4c41424943532043415252494552204b4b4545),
  (44, 0x30783135464609096b6b6909232043414e414449414e2053594c4c41424943532043415252494552204b4b49),
  (0, 0x0),
  (1, 0x23),
  (29, 0x2320436861726163746572732030783136303020746f20307831364646),
  (1, 0x23),
  (0, 0x0),
  (44, 0x30783136303009096b6b6109232043414e414449414e2053594c4c41424943532043415252494552204b4b41),
  (42, 0x30783136303109096b6b09232043414e414449414e2053594c4c41424943532043415252494552204b4b),
  (42, 0x30783136303209096e7509232043414e414449414e2053594c4c41424943532043415252494552204e55),
  (42, 0x30783136303309096e6f09232043414e414449414e2053594c4c41424943532043415252494552204e4f),
  (42, 0x30783136303409096e6509232043414e414449414e2053594c4c41424943532043415252494552204e45),
  (44, 0x30783136303509096e656509232043414e414449414e2053594c4c41424943532043415252494552204e4545),
  (42, 0x30783136303609096e6909232043414e414449414e2053594c4c41424943532043415252494552204e49),
  (42, 0x30783136303709096e6109232043414e414449414e2053594c4c41424943532043415252494552204e41),
  (42, 0x30783136303809096d7509232043414e414449414e2053594c4c41424943532043415252494552204d55),
  (42, 0x30783136303909096d6f09232043414e414449414e2053594c4c41424943532043415252494552204d4f),
  (42, 0x30783136304109096d6509232043414e414449414e2053594c4c41424943532043415252494552204d45),
  (44, 0x30783136304209096d656509232043414e414449414e2053594c4c41424943532043415252494552204d4545),
  (42, 0x30783136304309096d6909232043414e414449414e2053594c4c41424943532043415252494552204d49),
  (42, 0x30783136304409096d6109232043414e414449414e2053594c4c41424943532043415252494552204d41),
  (42, 0x3078313630450909797509232043414e414449414e2053594c4c41424943532043415252494552205955),
  (42, 0x3078313630460909796f09232043414e414449414e2053594c4c4142494353204341525249455220594f),
  (0, 0x0),
  (42, 0x3078313631300909796509232043414e414449414e2053594c4c41424943532043415252494552205945),
  (44, 0x307831363131090979656509232043414e414449414e2053594c4c4142494353204341525249455220594545),
  (42, 0x3078313631320909796909232043414e414449414e2053594c4c41424943532043415252494552205949),
  (42, 0x3078313631330909796109232043414e414449414e2053594c4c41424943532043415252494552205941),
  (42, 0x30783136313409096a7509232043414e414449414e2053594c4c41424943532043415252494552204a55),
  (41, 0x30783136313509096a7509232043414e414449414e2053594c4c414249435320534159495349204a55),
  (42, 0x30783136313609096a6f09232043414e414449414e2053594c4c41424943532043415252494552204a4f)]

/-- Lines 4219-4318 of table/legacy/unidecode.tbl. -/
def legacy_unidecode_44 : List (Nat × Nat) := [
  (42, 0x30783136313709096a6509232043414e414449414e2053594c4c41424943532043415252494552204a45),
  (44, 0x30783136313809096a656509232043414e414449414e2053594c4c41424943532043415252494552204a4545),
  (42, 0x30783136313909096a6909232043414e414449414e2053594c4c41424943532043415252494552204a49),
  (41, 0x30783136314109096a6909232043414e414449414e2053594c4c414249435320534159495349204a49),
  (42, 0x30783136314209096a6109232043414e414449414e2053594c4c41424943532043415252494552204a41),
  (44, 0x30783136314309096a6a7509232043414e414449414e2053594c4c41424943532043415252494552204a4a55),
  (44, 0x30783136314409096a6a6f09232043414e414449414e2053594c4c41424943532043415252494552204a4a4f),
  (44, 0x30783136314509096a6a6509232043414e414449414e2053594c4c41424943532043415252494552204a4a45),
  (46, 0x30783136314609096a6a656509232043414e414449414e2053594c4c41424943532043415252494552204a4a4545),
  (0, 0x0),
  (44, 0x30783136323009096a6a6909232043414e414449414e2053594c4c41424943532043415252494552204a4a49),
  (44, 0x30783136323109096a6a6109232043414e414449414e2053594c4c41424943532043415252494552204a4a41),
  (42, 0x30783136323209096c7509232043414e414449414e2053594c4c41424943532043415252494552204c55),
  (42, 0x30783136323309096c6f09232043414e414449414e2053594c4c41424943532043415252494552204c4f),
  (42, 0x30783136323409096c6509232043414e414449414e2053594c4c41424943532043415252494552204c45),
  (44, 0x30783136323509096c656509232043414e414449414e2053594c4c41424943532043415252494552204c4545),
  (42, 0x30783136323609096c6909232043414e414449414e2053594c4c41424943532043415252494552204c49),
  (42, 0x30783136323709096c6109232043414e414449414e2053594c4c41424943532043415252494552204c41),
  (44, 0x3078313632380909646c7509232043414e414449414e2053594c4c4142494353204341525249455220444c55),
  (44, 0x3078313632390909646c6f09232043414e414449414e2053594c4c4142494353204341525249455220444c4f),
  (44, 0x3078313632410909646c6509232043414e414449414e2053594c4c4142494353204341525249455220444c45),
  (46, 0x3078313632420909646c656509232043414e414449414e2053594c4c4142494353204341525249455220444c4545),
  (44, 0x3078313632430909646c6909232043414e414449414e2053594c4c4142494353204341525249455220444c49),
  (44, 0x3078313632440909646c6109232043414e414449414e2053594c4c4142494353204341525249455220444c41),
  (44, 0x30783136324509096c687509232043414e414449414e2053594c4c41424943532043415252494552204c4855),
  (44, 0x30783136324609096c686f09232043414e414449414e2053594c4c41424943532043415252494552204c484f),
  (0, 0x0),
  (44, 0x30783136333009096c686509232043414e414449414e2053594c4c41424943532043415252494552204c4845),
  (46, 0x30783136333109096c68656509232043414e414449414e2053594c4c41424943532043415252494552204c484545),
  (44, 0x30783136333209096c686909232043414e414449414e2053594c4c41424943532043415252494552204c4849),
  (44, 0x30783136333309096c686109232043414e414449414e2053594c4c41424943532043415252494552204c4841),
  (46, 0x3078313633340909746c687509232043414e414449414e2053594c4c4142494353204341525249455220544c4855),
  (46, 0x3078313633350909746c686f09232043414e414449414e2053594c4c4142494353204341525249455220544c484f),
  (46, 0x3078313633360909746c686509232043414e414449414e2053594c4c4142494353204341525249455220544c4845),
  (48, 0x3078313633370909746c68656509232043414e414449414e2053594c4c4142494353204341525249455220544c484545),
  (46, 0x3078313633380909746c686909232043414e414449414e2053594c4c4142494353204341525249455220544c4849),
  (46, 0x3078313633390909746c686109232043414e414449414e2053594c4c4142494353204341525249455220544c4841),
  (44, 0x3078313633410909746c7509232043414e414449414e2053594c4c4142494353204341525249455220544c55),
  (44, 0x3078313633420909746c6f09232043414e414449414e2053594c4c4142494353204341525249455220544c4f),
  (44, 0x3078313633430909746c6509232043414e414449414e2053594c4c4142494353204341525249455220544c45),
  (46, 0x3078313633440909746c656509232043414e414449414e2053594c4c4142494353204341525249455220544c4545),
  (44, 0x3078313633450909746c6909232043414e414449414e2053594c4c4142494353204341525249455220544c49),
  (44, 0x3078313633460909746c6109232043414e414449414e2053594c4c4142494353204341525249455220544c41),
  (0, 0x0),
  (42, 0x30783136343009097a7509232043414e414449414e2053594c4c41424943532043415252494552205a55),
  (42, 0x30783136343109097a6f09232043414e414449414e2053594c4c41424943532043415252494552205a4f),
  (42, 0x30783136343209097a6509232043414e414449414e2053594c4c41424943532043415252494552205a45),
  (44, 0x30783136343309097a656509232043414e414449414e2053594c4c41424943532043415252494552205a4545),
  (42, 0x30783136343409097a6909232043414e414449414e2053594c4c41424943532043415252494552205a49),
  (42, 0x30783136343509097a6109232043414e414449414e2053594c4c41424943532043415252494552205a41),
  (40, 0x30783136343609097a09232043414e414449414e2053594c4c41424943532043415252494552205a),
  (48, 0x30783136343709097a09232043414e414449414e2053594c4c4142494353204341525249455220494e495449414c205a),
  (44, 0x3078313634380909647a7509232043414e414449414e2053594c4c4142494353204341525249455220445a55),
  (44, 0x3078313634390909647a6f09232043414e414449414e2053594c4c4142494353204341525249455220445a4f),
  (44, 0x3078313634410909647a6509232043414e414449414e2053594c4c4142494353204341525249455220445a45),
  (46, 0x3078313634420909647a656509232043414e414449414e2053594c4c4142494353204341525249455220445a4545),
  (44, 0x3078313634430909647a6909232043414e414449414e2053594c4c4142494353204341525249455220445a49),
  (44, 0x3078313634440909647a6109232043414e414449414e2053594c4c4142494353204341525249455220445a41),
  (42, 0x3078313634450909737509232043414e414449414e2053594c4c41424943532043415252494552205355),
  (42, 0x3078313634460909736f09232043414e414449414e2053594c4c4142494353204341525249455220534f),
  (0, 0x0),
  (42, 0x3078313635300909736509232043414e414449414e2053594c4c41424943532043415252494552205345),
  (44, 0x307831363531090973656509232043414e414449414e2053594c4c4142494353204341525249455220534545),
  (42, 0x3078313635320909736909232043414e414449414e2053594c4c41424943532043415252494552205349),
  (42, 0x3078313635330909736109232043414e414449414e2053594c4c41424943532043415252494552205341),
  (44, 0x307831363534090973687509232043414e414449414e2053594c4c4142494353204341525249455220534855),
  (44, 0x307831363535090973686f09232043414e414449414e2053594c4c414249435320434152524945522053484f),
  (44, 0x307831363536090973686509232043414e414449414e2053594c4c4142494353204341525249455220534845),
  (46, 0x30783136353709097368656509232043414e414449414e2053594c4c414249435320434152524945522053484545),
  (44, 0x307831363538090973686909232043414e414449414e2053594c4c4142494353204341525249455220534849),
  (44, 0x307831363539090973686109232043414e414449414e2053594c4c4142494353204341525249455220534841),
  (42, 0x3078313635410909736809232043414e414449414e2053594c4c41424943532043415252494552205348),
  (44, 0x307831363542090974737509232043414e414449414e2053594c4c4142494353204341525249455220545355),
  (44, 0x307831363543090974736f09232043414e414449414e2053594c4c414249435320434152524945522054534f),
  (44, 0x307831363544090974736509232043414e414449414e2053594c4c4142494353204341525249455220545345),
  (46, 0x30783136354509097473656509232043414e414449414e2053594c4c414249435320434152524945522054534545),
  (44, 0x307831363546090974736909232043414e414449414e2053594c4c4142494353204341525249455220545349),
  (0, 0x0),
  (44, 0x307831363630090974736109232043414e414449414e2053594c4c4142494353204341525249455220545341),
  (44, 0x307831363631090963687509232043414e414449414e2053594c4c4142494353204341525249455220434855),
  (44, 0x307831363632090963686f09232043414e414449414e2053594c4c414249435320434152524945522043484f),
  (44, 0x307831363633090963686509232043414e414449414e2053594c4c4142494353204341525249455220434845),
  (46, 0x30783136363409096368656509232043414e414449414e2053594c4c414249435320434152524945522043484545),
  (44, 0x307831363635090963686909232043414e414449414e2053594c4c4142494353204341525249455220434849),
  (44, 0x307831363636090963686109232043414e414449414e2053594c4c4142494353204341525249455220434841),
  (46, 0x30783136363709097474737509232043414e414449414e2053594c4c414249435320434152524945522054545355),
  (46, 0x30783136363809097474736f09232043414e414449414e2053594c4c41424943532043415252494552205454534f),
  (46, 0x30783136363909097474736509232043414e414449414e2053594c4c414249435320434152524945522054545345),
  (48, 0x3078313636410909747473656509232043414e414449414e2053594c4c41424943532043415252494552205454534545),
  (46, 0x30783136364209097474736909232043414e414449414e2053594c4c414249435320434152524945522054545349),
  (46, 0x30783136364309097474736109232043414e414449414e2053594c4c414249435320434152524945522054545341),
  (39, 0x30783136364409095809232043414e414449414e2053594c4c414249435320434849205349474e),
  (40, 0x30783136364509092e09232043414e414449414e2053594c4c41424943532046554c4c2053544f50),
  (36, 0x307831363646090971616909232043414e414449414e2053594c4c414249435320514149),
  (0, 0x0),
  (38, 0x30783136373009096e67616909232043414e414449414e2053594c4c4142494353204e474149),
  (38, 0x30783136373109096e6e676909232043414e414449414e2053594c4c4142494353204e4e4749),
  (40, 0x30783136373209096e6e67696909232043414e414449414e2053594c4c4142494353204e4e474949),
  (38, 0x30783136373309096e6e676f09232043414e414449414e2053594c4c4142494353204e4e474f),
  (40, 0x30783136373409096e6e676f6f09232043414e414449414e2053594c4c4142494353204e4e474f4f)]

/-- Lines 4319-4418 of table/legacy/unidecode.tbl. -/
def legacy_unidecode_45 : List (Nat × Nat) := [
  (38, 0x30783136373509096e6e676109232043414e414449414e2053594c4c4142494353204e4e4741),
  (40, 0x30783136373609096e6e67616109232043414e414449414e2053594c4c4142494353204e4e474141),
  (0, 0x0),
  (30, 0x30783136383009092220220923204f4748414d205350414345204d41524b),
  (30, 0x3078313638310909620923204f4748414d204c4554544552204245495448),
  (29, 0x30783136383209096c0923204f4748414d204c4554544552204c554953),
  (30, 0x3078313638330909660923204f4748414d204c455454455220464541524e),
  (29, 0x3078313638340909730923204f4748414d204c4554544552205341494c),
  (29, 0x30783136383509096e0923204f4748414d204c4554544552204e494f4e),
  (29, 0x3078313638360909680923204f4748414d204c45545445522055415448),
  (29, 0x3078313638370909640923204f4748414d204c45545445522044414952),
  (30, 0x3078313638380909740923204f4748414d204c45545445522054494e4e45),
  (29, 0x3078313638390909630923204f4748414d204c455454455220434f4c4c),
  (30, 0x3078313638410909710923204f4748414d204c4554544552204345495254),
  (29, 0x30783136384209096d0923204f4748414d204c4554544552204d55494e),
  (29, 0x3078313638430909670923204f4748414d204c455454455220474f5254),
  (33, 0x30783136384409096e670923204f4748414d204c4554544552204e47454144414c),
  (31, 0x30783136384509097a0923204f4748414d204c455454455220535452414946),
  (29, 0x3078313638460909720923204f4748414d204c45545445522052554953),
  (0, 0x0),
  (29, 0x3078313639300909610923204f4748414d204c45545445522041494c4d),
  (28, 0x30783136393109096f0923204f4748414d204c4554544552204f4e4e),
  (27, 0x3078313639320909750923204f4748414d204c4554544552205552),
  (32, 0x3078313639330909650923204f4748414d204c45545445522045414448414448),
  (32, 0x3078313639340909690923204f4748414d204c455454455220494f4448414448),
  (33, 0x307831363935090963680923204f4748414d204c45545445522045414248414448),
  (28, 0x307831363936090974680923204f4748414d204c4554544552204f52),
  (34, 0x307831363937090970680923204f4748414d204c45545445522055494c4c45414e4e),
  (29, 0x3078313639380909700923204f4748414d204c4554544552204946494e),
  (36, 0x3078313639390909780923204f4748414d204c45545445522045414d48414e43484f4c4c),
  (30, 0x3078313639410909700923204f4748414d204c4554544552205045495448),
  (30, 0x30783136394209093c0923204f4748414d2046454154484552204d41524b),
  (39, 0x30783136394309093e0923204f4748414d2052455645525345442046454154484552204d41524b),
  (0, 0x0),
  (39, 0x30783136413009096609232052554e4943204c455454455220464548552046454f482046452046),
  (26, 0x30783136413109097609232052554e4943204c45545445522056),
  (34, 0x30783136413209097509232052554e4943204c4554544552205552555a2055522055),
  (28, 0x3078313641330909797209232052554e4943204c4554544552205952),
  (26, 0x30783136413409097909232052554e4943204c45545445522059),
  (26, 0x30783136413509097709232052554e4943204c45545445522057),
  (46, 0x3078313641360909746809232052554e4943204c455454455220544855524953415a2054485552532054484f524e),
  (29, 0x3078313641370909746809232052554e4943204c455454455220455448),
  (32, 0x30783136413809096109232052554e4943204c455454455220414e53555a2041),
  (29, 0x30783136413909096f09232052554e4943204c4554544552204f53204f),
  (30, 0x3078313641410909616309232052554e4943204c45545445522041432041),
  (30, 0x3078313641420909616509232052554e4943204c45545445522041455343),
  (42, 0x30783136414309096f09232052554e4943204c4554544552204c4f4e472d4252414e43482d4f5353204f),
  (41, 0x30783136414409096f09232052554e4943204c45545445522053484f52542d545749472d4f5353204f),
  (26, 0x30783136414509096f09232052554e4943204c4554544552204f),
  (28, 0x30783136414609096f6509232052554e4943204c4554544552204f45),
  (0, 0x0),
  (28, 0x30783136423009096f6e09232052554e4943204c4554544552204f4e),
  (41, 0x30783136423109097209232052554e4943204c455454455220524149444f2052414420524549442052),
  (30, 0x30783136423209096b09232052554e4943204c4554544552204b41554e41),
  (28, 0x30783136423309096309232052554e4943204c45545445522043454e),
  (31, 0x30783136423409096b09232052554e4943204c4554544552204b41554e204b),
  (26, 0x30783136423509096709232052554e4943204c45545445522047),
  (29, 0x30783136423609096e6709232052554e4943204c455454455220454e47),
  (36, 0x30783136423709096709232052554e4943204c4554544552204745424f20475946552047),
  (28, 0x30783136423809096709232052554e4943204c455454455220474152),
  (37, 0x30783136423909097709232052554e4943204c45545445522057554e4a4f2057594e4e2057),
  (33, 0x30783136424109096809232052554e4943204c4554544552204841474c415a2048),
  (32, 0x30783136424209096809232052554e4943204c455454455220484145474c2048),
  (45, 0x30783136424309096809232052554e4943204c4554544552204c4f4e472d4252414e43482d484147414c4c2048),
  (44, 0x30783136424409096809232052554e4943204c45545445522053484f52542d545749472d484147414c4c2048),
  (42, 0x30783136424509096e09232052554e4943204c4554544552204e415544495a204e5944204e415544204e),
  (42, 0x30783136424609096e09232052554e4943204c45545445522053484f52542d545749472d4e415544204e),
  (0, 0x0),
  (33, 0x30783136433009096e09232052554e4943204c455454455220444f545445442d4e),
  (38, 0x30783136433109096909232052554e4943204c4554544552204953415a204953204953532049),
  (26, 0x30783136433209096509232052554e4943204c45545445522045),
  (32, 0x30783136433309096a09232052554e4943204c4554544552204a4552414e204a),
  (28, 0x30783136433409096709232052554e4943204c455454455220474552),
  (43, 0x3078313643350909616509232052554e4943204c4554544552204c4f4e472d4252414e43482d4152204145),
  (40, 0x30783136433609096109232052554e4943204c45545445522053484f52542d545749472d41522041),
  (34, 0x3078313643370909656f09232052554e4943204c4554544552204957415a20454f48),
  (40, 0x30783136433809097009232052554e4943204c45545445522050455254484f2050454f5254482050),
  (36, 0x30783136433909097a09232052554e4943204c455454455220414c47495a20454f4c4858),
  (33, 0x30783136434109097309232052554e4943204c455454455220534f57494c4f2053),
  (48, 0x30783136434209097309232052554e4943204c455454455220534947454c204c4f4e472d4252414e43482d534f4c2053),
  (41, 0x30783136434309097309232052554e4943204c45545445522053484f52542d545749472d534f4c2053),
  (26, 0x30783136434409096309232052554e4943204c45545445522043),
  (26, 0x30783136434509097a09232052554e4943204c4554544552205a),
  (40, 0x30783136434609097409232052554e4943204c455454455220544957415a20544952205459522054),
  (0, 0x0),
  (41, 0x30783136443009097409232052554e4943204c45545445522053484f52542d545749472d5459522054),
  (26, 0x30783136443109096409232052554e4943204c45545445522044),
  (49, 0x30783136443209096209232052554e4943204c4554544552204245524b414e414e2042454f524320424a41524b414e2042),
  (45, 0x30783136443309096209232052554e4943204c45545445522053484f52542d545749472d424a41524b414e2042),
  (33, 0x30783136443409097009232052554e4943204c455454455220444f545445442d50),
  (31, 0x30783136443509097009232052554e4943204c4554544552204f50454e2d50),
  (35, 0x30783136443609096509232052554e4943204c455454455220454857415a2045482045),
  (37, 0x30783136443709096d09232052554e4943204c4554544552204d414e4e415a204d414e204d),
  (43, 0x30783136443809096d09232052554e4943204c4554544552204c4f4e472d4252414e43482d4d414452204d),
  (42, 0x30783136443909096d09232052554e4943204c45545445522053484f52542d545749472d4d414452204d),
  (43, 0x30783136444109096c09232052554e4943204c4554544552204c41554b415a204c414755204c4f4752204c),
  (33, 0x30783136444209096c09232052554e4943204c455454455220444f545445442d4c),
  (32, 0x30783136444309096e6709232052554e4943204c455454455220494e4757415a),
  (29, 0x30783136444409096e6709232052554e4943204c455454455220494e47),
  (37, 0x30783136444509096409232052554e4943204c455454455220444147415a20444145472044)]

/-- Lines 4419-4518 of table/legacy/unidecode.tbl. -/
def legacy_unidecode_46 : List (Nat × Nat) := [
  (40, 0x30783136444609096f09232052554e4943204c4554544552204f5448414c414e20455448454c204f),
  (0, 0x0),
  (30, 0x307831364530090965617209232052554e4943204c455454455220454152),
  (30, 0x3078313645310909696f7209232052554e4943204c455454455220494f52),
  (33, 0x3078313645320909717509232052554e4943204c4554544552204357454f525448),
  (30, 0x3078313645330909717509232052554e4943204c45545445522043414c43),
  (31, 0x3078313645340909717509232052554e4943204c4554544552204345414c43),
  (29, 0x30783136453509097309232052554e4943204c4554544552205354414e),
  (40, 0x3078313645360909797209232052554e4943204c4554544552204c4f4e472d4252414e43482d5952),
  (39, 0x3078313645370909797209232052554e4943204c45545445522053484f52542d545749472d5952),
  (38, 0x3078313645380909797209232052554e4943204c4554544552204943454c414e4449432d5952),
  (26, 0x30783136453909097109232052554e4943204c45545445522051),
  (26, 0x30783136454109097809232052554e4943204c45545445522058),
  (36, 0x30783136454209092e09232052554e49432053494e474c452050554e4354554154494f4e),
  (38, 0x30783136454309093a09232052554e4943204d554c5449504c452050554e4354554154494f4e),
  (35, 0x30783136454409092b09232052554e49432043524f53532050554e4354554154494f4e),
  (32, 0x3078313645450909313709232052554e49432041524c4155472053594d424f4c),
  (34, 0x3078313645460909313809232052554e4943205456494d414455522053594d424f4c),
  (0, 0x0),
  (34, 0x3078313646300909313909232052554e49432042454c4754484f522053594d424f4c),
  (0, 0x0),
  (1, 0x23),
  (29, 0x2320436861726163746572732030783137303020746f20307831374646),
  (1, 0x23),
  (0, 0x0),
  (27, 0x30783137383009096b0923204b484d4552204c4554544552204b41),
  (29, 0x30783137383109096b680923204b484d4552204c4554544552204b4841),
  (27, 0x3078313738320909670923204b484d4552204c4554544552204b4f),
  (29, 0x307831373833090967680923204b484d4552204c4554544552204b484f),
  (29, 0x30783137383409096e670923204b484d4552204c4554544552204e474f),
  (27, 0x3078313738350909630923204b484d4552204c4554544552204341),
  (29, 0x307831373836090963680923204b484d4552204c455454455220434841),
  (27, 0x30783137383709096a0923204b484d4552204c455454455220434f),
  (29, 0x30783137383809096a680923204b484d4552204c45545445522043484f),
  (29, 0x30783137383909096e790923204b484d4552204c4554544552204e594f),
  (27, 0x3078313738410909740923204b484d4552204c4554544552204441),
  (31, 0x30783137384209097474680923204b484d4552204c45545445522054544841),
  (27, 0x3078313738430909640923204b484d4552204c455454455220444f),
  (31, 0x30783137384409096464680923204b484d4552204c4554544552205454484f),
  (29, 0x30783137384509096e6e0923204b484d4552204c4554544552204e4e4f),
  (27, 0x3078313738460909740923204b484d4552204c4554544552205441),
  (0, 0x0),
  (29, 0x307831373930090974680923204b484d4552204c455454455220544841),
  (27, 0x3078313739310909640923204b484d4552204c455454455220544f),
  (29, 0x307831373932090964680923204b484d4552204c45545445522054484f),
  (27, 0x30783137393309096e0923204b484d4552204c4554544552204e4f),
  (27, 0x3078313739340909700923204b484d4552204c4554544552204241),
  (29, 0x307831373935090970680923204b484d4552204c455454455220504841),
  (27, 0x3078313739360909620923204b484d4552204c455454455220504f),
  (29, 0x307831373937090962680923204b484d4552204c45545445522050484f),
  (27, 0x30783137393809096d0923204b484d4552204c4554544552204d4f),
  (27, 0x3078313739390909790923204b484d4552204c455454455220594f),
  (27, 0x3078313739410909720923204b484d4552204c455454455220524f),
  (27, 0x30783137394209096c0923204b484d4552204c4554544552204c4f),
  (27, 0x3078313739430909760923204b484d4552204c455454455220564f),
  (29, 0x307831373944090973680923204b484d4552204c455454455220534841),
  (29, 0x307831373945090973730923204b484d4552204c45545445522053534f),
  (27, 0x3078313739460909730923204b484d4552204c4554544552205341),
  (0, 0x0),
  (27, 0x3078313741300909680923204b484d4552204c4554544552204841),
  (27, 0x30783137413109096c0923204b484d4552204c4554544552204c41),
  (27, 0x3078313741320909710923204b484d4552204c4554544552205141),
  (39, 0x3078313741330909610923204b484d455220494e444550454e44454e5420564f57454c20514151),
  (40, 0x307831374134090961610923204b484d455220494e444550454e44454e5420564f57454c20514141),
  (38, 0x3078313741350909690923204b484d455220494e444550454e44454e5420564f57454c205149),
  (40, 0x307831374136090969690923204b484d455220494e444550454e44454e5420564f57454c20514949),
  (38, 0x3078313741370909750923204b484d455220494e444550454e44454e5420564f57454c205155),
  (40, 0x3078313741380909756b0923204b484d455220494e444550454e44454e5420564f57454c2051554b),
  (40, 0x307831374139090975750923204b484d455220494e444550454e44454e5420564f57454c20515555),
  (42, 0x30783137414109097575760923204b484d455220494e444550454e44454e5420564f57454c2051555556),
  (39, 0x307831374142090972790923204b484d455220494e444550454e44454e5420564f57454c205259),
  (41, 0x30783137414309097279790923204b484d455220494e444550454e44454e5420564f57454c20525959),
  (39, 0x30783137414409096c790923204b484d455220494e444550454e44454e5420564f57454c204c59),
  (41, 0x30783137414509096c79790923204b484d455220494e444550454e44454e5420564f57454c204c5959),
  (38, 0x3078313741460909650923204b484d455220494e444550454e44454e5420564f57454c205145),
  (0, 0x0),
  (40, 0x307831374230090961690923204b484d455220494e444550454e44454e5420564f57454c20514149),
  (49, 0x30783137423109096f6f0923204b484d455220494e444550454e44454e5420564f57454c20514f4f2054595045204f4e45),
  (49, 0x30783137423209096f6f0923204b484d455220494e444550454e44454e5420564f57454c20514f4f20545950452054574f),
  (40, 0x307831374233090961750923204b484d455220494e444550454e44454e5420564f57454c20514155),
  (35, 0x3078313742340909610923204b484d455220564f57454c20494e484552454e54204151),
  (36, 0x307831374235090961610923204b484d455220564f57454c20494e484552454e54204141),
  (32, 0x307831374236090961610923204b484d455220564f57454c205349474e204141),
  (30, 0x3078313742370909690923204b484d455220564f57454c205349474e2049),
  (32, 0x307831374238090969690923204b484d455220564f57454c205349474e204949),
  (30, 0x3078313742390909790923204b484d455220564f57454c205349474e2059),
  (32, 0x307831374241090979790923204b484d455220564f57454c205349474e205959),
  (30, 0x3078313742420909750923204b484d455220564f57454c205349474e2055),
  (32, 0x307831374243090975750923204b484d455220564f57454c205349474e205555),
  (32, 0x307831374244090975610923204b484d455220564f57454c205349474e205541),
  (32, 0x30783137424509096f650923204b484d455220564f57454c205349474e204f45),
  (32, 0x307831374246090979610923204b484d455220564f57454c205349474e205941),
  (0, 0x0),
  (32, 0x307831374330090969650923204b484d455220564f57454c205349474e204945),
  (30, 0x3078313743310909650923204b484d455220564f57454c205349474e2045),
  (32, 0x307831374332090961650923204b484d455220564f57454c205349474e204145),
  (32, 0x307831374333090961690923204b484d455220564f57454c205349474e204149),
  (32, 0x30783137433409096f6f0923204b484d455220564f57454c205349474e204f4f),
  (32, 0x307831374335090961750923204b484d455220564f57454c205349474e204155),
  (30, 0x30783137433609094d0923204b484d4552205349474e204e494b41484954)]

/-- Lines 4519-4618 of table/legacy/unidecode.tbl. -/
def legacy_unidecode_47 : List (Nat × Nat) := [
  (30, 0x3078313743370909480923204b484d4552205349474e20524541484d554b),
  (37, 0x307831374338090961600923204b484d4552205349474e205955554b414c454150494e5455),
  (28, 0x3078313743430909720923204b484d4552205349474e20524f424154),
  (30, 0x3078313743450909210923204b484d4552205349474e204b414b41424154),
  (0, 0x0),
  (27, 0x30783137443409092e0923204b484d4552205349474e204b48414e),
  (36, 0x3078313744350909202f2f200923204b484d4552205349474e2042415249594f4f53414e),
  (38, 0x30783137443609093a0923204b484d4552205349474e2043414d4e554320504949204b555548),
  (30, 0x30783137443709092b0923204b484d4552205349474e204c454b20544f4f),
  (30, 0x30783137443809092b2b0923204b484d4552205349474e2042455959414c),
  (36, 0x3078313744390909202a200923204b484d4552205349474e2050484e41454b204d55414e),
  (34, 0x3078313744410909202f2f2f200923204b484d4552205349474e204b4f4f4d555554),
  (39, 0x30783137444209094b520923204b484d45522043555252454e43592053594d424f4c205249454c),
  (38, 0x30783137444309092227220923204b484d4552205349474e204156414b5241484153414e5941),
  (0, 0x0),
  (28, 0x3078313745300909300923204b484d4552204449474954205a45524f),
  (27, 0x3078313745310909310923204b484d4552204449474954204f4e45),
  (27, 0x3078313745320909320923204b484d45522044494749542054574f),
  (29, 0x3078313745330909330923204b484d4552204449474954205448524545),
  (28, 0x3078313745340909340923204b484d455220444947495420464f5552),
  (28, 0x3078313745350909350923204b484d45522044494749542046495645),
  (27, 0x3078313745360909360923204b484d455220444947495420534958),
  (29, 0x3078313745370909370923204b484d455220444947495420534556454e),
  (29, 0x3078313745380909380923204b484d4552204449474954204549474854),
  (28, 0x3078313745390909390923204b484d4552204449474954204e494e45),
  (0, 0x0),
  (1, 0x23),
  (29, 0x2320436861726163746572732030783138303020746f20307831384646),
  (1, 0x23),
  (0, 0x0),
  (29, 0x30783138303009092040200923204d4f4e474f4c49414e204249524741),
  (34, 0x3078313830310909202e2e2e200923204d4f4e474f4c49414e20454c4c4950534953),
  (28, 0x30783138303209092c200923204d4f4e474f4c49414e20434f4d4d41),
  (32, 0x30783138303309092e200923204d4f4e474f4c49414e2046554c4c2053544f50),
  (28, 0x30783138303409093a200923204d4f4e474f4c49414e20434f4c4f4e),
  (34, 0x3078313830350909202f2f200923204d4f4e474f4c49414e20464f555220444f5453),
  (51, 0x30783138303709092d0923204d4f4e474f4c49414e20534942452053594c4c41424c4520424f554e44415259204d41524b4552),
  (35, 0x30783138303809092c200923204d4f4e474f4c49414e204d414e43485520434f4d4d41),
  (39, 0x30783138303909092e200923204d4f4e474f4c49414e204d414e4348552046554c4c2053544f50),
  (0, 0x0),
  (32, 0x3078313831300909300923204d4f4e474f4c49414e204449474954205a45524f),
  (31, 0x3078313831310909310923204d4f4e474f4c49414e204449474954204f4e45),
  (31, 0x3078313831320909320923204d4f4e474f4c49414e2044494749542054574f),
  (33, 0x3078313831330909330923204d4f4e474f4c49414e204449474954205448524545),
  (32, 0x3078313831340909340923204d4f4e474f4c49414e20444947495420464f5552),
  (32, 0x3078313831350909350923204d4f4e474f4c49414e2044494749542046495645),
  (31, 0x3078313831360909360923204d4f4e474f4c49414e20444947495420534958),
  (33, 0x3078313831370909370923204d4f4e474f4c49414e20444947495420534556454e),
  (33, 0x3078313831380909380923204d4f4e474f4c49414e204449474954204549474854),
  (32, 0x3078313831390909390923204d4f4e474f4c49414e204449474954204e494e45),
  (0, 0x0),
  (30, 0x3078313832300909610923204d4f4e474f4c49414e204c45545445522041),
  (30, 0x3078313832310909650923204d4f4e474f4c49414e204c45545445522045),
  (30, 0x3078313832320909690923204d4f4e474f4c49414e204c45545445522049),
  (30, 0x30783138323309096f0923204d4f4e474f4c49414e204c4554544552204f),
  (30, 0x3078313832340909750923204d4f4e474f4c49414e204c45545445522055),
  (31, 0x30783138323509094f0923204d4f4e474f4c49414e204c4554544552204f45),
  (31, 0x3078313832360909550923204d4f4e474f4c49414e204c4554544552205545),
  (32, 0x307831383237090965650923204d4f4e474f4c49414e204c4554544552204545),
  (31, 0x30783138323809096e0923204d4f4e474f4c49414e204c4554544552204e41),
  (33, 0x30783138323909096e670923204d4f4e474f4c49414e204c455454455220414e47),
  (31, 0x3078313832410909620923204d4f4e474f4c49414e204c4554544552204241),
  (31, 0x3078313832420909700923204d4f4e474f4c49414e204c4554544552205041),
  (31, 0x3078313832430909710923204d4f4e474f4c49414e204c4554544552205141),
  (31, 0x3078313832440909670923204d4f4e474f4c49414e204c4554544552204741),
  (31, 0x30783138324509096d0923204d4f4e474f4c49414e204c4554544552204d41),
  (31, 0x30783138324609096c0923204d4f4e474f4c49414e204c4554544552204c41),
  (0, 0x0),
  (31, 0x3078313833300909730923204d4f4e474f4c49414e204c4554544552205341),
  (33, 0x307831383331090973680923204d4f4e474f4c49414e204c455454455220534841),
  (31, 0x3078313833320909740923204d4f4e474f4c49414e204c4554544552205441),
  (31, 0x3078313833330909640923204d4f4e474f4c49414e204c4554544552204441),
  (33, 0x307831383334090963680923204d4f4e474f4c49414e204c455454455220434841),
  (31, 0x30783138333509096a0923204d4f4e474f4c49414e204c4554544552204a41),
  (31, 0x3078313833360909790923204d4f4e474f4c49414e204c4554544552205941),
  (31, 0x3078313833370909720923204d4f4e474f4c49414e204c4554544552205241),
  (31, 0x3078313833380909770923204d4f4e474f4c49414e204c4554544552205741),
  (31, 0x3078313833390909660923204d4f4e474f4c49414e204c4554544552204641),
  (31, 0x30783138334109096b0923204d4f4e474f4c49414e204c4554544552204b41),
  (34, 0x30783138334209096b68610923204d4f4e474f4c49414e204c4554544552204b4841),
  (33, 0x307831383343090974730923204d4f4e474f4c49414e204c455454455220545341),
  (31, 0x30783138334409097a0923204d4f4e474f4c49414e204c4554544552205a41),
  (32, 0x3078313833450909680923204d4f4e474f4c49414e204c455454455220484141),
  (33, 0x30783138334609097a720923204d4f4e474f4c49414e204c4554544552205a5241),
  (0, 0x0),
  (33, 0x30783138343009096c680923204d4f4e474f4c49414e204c4554544552204c4841),
  (33, 0x30783138343109097a680923204d4f4e474f4c49414e204c4554544552205a4849),
  (33, 0x307831383432090963680923204d4f4e474f4c49414e204c455454455220434849),
  (49, 0x30783138343309092d0923204d4f4e474f4c49414e204c455454455220544f444f204c4f4e4720564f57454c205349474e),
  (35, 0x3078313834340909650923204d4f4e474f4c49414e204c455454455220544f444f2045),
  (35, 0x3078313834350909690923204d4f4e474f4c49414e204c455454455220544f444f2049),
  (35, 0x30783138343609096f0923204d4f4e474f4c49414e204c455454455220544f444f204f),
  (35, 0x3078313834370909750923204d4f4e474f4c49414e204c455454455220544f444f2055),
  (36, 0x30783138343809094f0923204d4f4e474f4c49414e204c455454455220544f444f204f45),
  (36, 0x3078313834390909550923204d4f4e474f4c49414e204c455454455220544f444f205545),
  (38, 0x30783138344109096e670923204d4f4e474f4c49414e204c455454455220544f444f20414e47),
  (36, 0x3078313834420909620923204d4f4e474f4c49414e204c455454455220544f444f204241),
  (36, 0x3078313834430909700923204d4f4e474f4c49414e204c455454455220544f444f205041),
  (36, 0x3078313834440909710923204d4f4e474f4c49414e204c455454455220544f444f205141),
  (36, 0x3078313834450909670923204d4f4e474f4c49414e204c455454455220544f444f204741)]

/-- Lines 4619-4718 of table/legacy/unidecode.tbl. -/
def legacy_unidecode_48 : List (Nat × Nat) := [
  (36, 0x30783138344609096d0923204d4f4e474f4c49414e204c455454455220544f444f204d41),
  (0, 0x0),
  (36, 0x3078313835300909740923204d4f4e474f4c49414e204c455454455220544f444f205441),
  (36, 0x3078313835310909640923204d4f4e474f4c49414e204c455454455220544f444f204441),
  (38, 0x307831383532090963680923204d4f4e474f4c49414e204c455454455220544f444f20434841),
  (36, 0x30783138353309096a0923204d4f4e474f4c49414e204c455454455220544f444f204a41),
  (38, 0x307831383534090974730923204d4f4e474f4c49414e204c455454455220544f444f20545341),
  (36, 0x3078313835350909790923204d4f4e474f4c49414e204c455454455220544f444f205941),
  (36, 0x3078313835360909770923204d4f4e474f4c49414e204c455454455220544f444f205741),
  (36, 0x30783138353709096b0923204d4f4e474f4c49414e204c455454455220544f444f204b41),
  (37, 0x3078313835380909670923204d4f4e474f4c49414e204c455454455220544f444f20474141),
  (37, 0x3078313835390909680923204d4f4e474f4c49414e204c455454455220544f444f20484141),
  (38, 0x30783138354109096a790923204d4f4e474f4c49414e204c455454455220544f444f204a4941),
  (38, 0x30783138354209096e790923204d4f4e474f4c49414e204c455454455220544f444f204e4941),
  (38, 0x3078313835430909647a0923204d4f4e474f4c49414e204c455454455220544f444f20445a41),
  (35, 0x3078313835440909650923204d4f4e474f4c49414e204c455454455220534942452045),
  (35, 0x3078313835450909690923204d4f4e474f4c49414e204c455454455220534942452049),
  (37, 0x307831383546090969790923204d4f4e474f4c49414e204c45545445522053494245204959),
  (0, 0x0),
  (36, 0x3078313836300909550923204d4f4e474f4c49414e204c45545445522053494245205545),
  (35, 0x3078313836310909750923204d4f4e474f4c49414e204c455454455220534942452055),
  (38, 0x30783138363209096e670923204d4f4e474f4c49414e204c4554544552205349424520414e47),
  (36, 0x30783138363309096b0923204d4f4e474f4c49414e204c45545445522053494245204b41),
  (36, 0x3078313836340909670923204d4f4e474f4c49414e204c45545445522053494245204741),
  (36, 0x3078313836350909680923204d4f4e474f4c49414e204c45545445522053494245204841),
  (36, 0x3078313836360909700923204d4f4e474f4c49414e204c45545445522053494245205041),
  (38, 0x307831383637090973680923204d4f4e474f4c49414e204c4554544552205349424520534841),
  (36, 0x3078313836380909740923204d4f4e474f4c49414e204c45545445522053494245205441),
  (36, 0x3078313836390909640923204d4f4e474f4c49414e204c45545445522053494245204441),
  (36, 0x30783138364109096a0923204d4f4e474f4c49414e204c45545445522053494245204a41),
  (36, 0x3078313836420909660923204d4f4e474f4c49414e204c45545445522053494245204641),
  (37, 0x3078313836430909670923204d4f4e474f4c49414e204c4554544552205349424520474141),
  (37, 0x3078313836440909680923204d4f4e474f4c49414e204c4554544552205349424520484141),
  (38, 0x307831383645090974730923204d4f4e474f4c49414e204c4554544552205349424520545341),
  (36, 0x30783138364609097a0923204d4f4e474f4c49414e204c45545445522053494245205a41),
  (0, 0x0),
  (37, 0x3078313837300909720923204d4f4e474f4c49414e204c4554544552205349424520524141),
  (38, 0x307831383731090963680923204d4f4e474f4c49414e204c4554544552205349424520434841),
  (38, 0x30783138373209097a680923204d4f4e474f4c49414e204c45545445522053494245205a4841),
  (37, 0x3078313837330909690923204d4f4e474f4c49414e204c4554544552204d414e4348552049),
  (38, 0x30783138373409096b0923204d4f4e474f4c49414e204c4554544552204d414e434855204b41),
  (38, 0x3078313837350909720923204d4f4e474f4c49414e204c4554544552204d414e434855205241),
  (38, 0x3078313837360909660923204d4f4e474f4c49414e204c4554544552204d414e434855204641),
  (40, 0x30783138373709097a680923204d4f4e474f4c49414e204c4554544552204d414e434855205a4841),
  (0, 0x0),
  (49, 0x3078313838310909480923204d4f4e474f4c49414e204c455454455220414c492047414c492056495341524741204f4e45),
  (44, 0x3078313838320909580923204d4f4e474f4c49414e204c455454455220414c492047414c492044414d415255),
  (45, 0x3078313838330909570923204d4f4e474f4c49414e204c455454455220414c492047414c492055424144414d41),
  (54, 0x30783138383409094d0923204d4f4e474f4c49414e204c455454455220414c492047414c4920494e5645525445442055424144414d41),
  (46, 0x30783138383509092033200923204d4f4e474f4c49414e204c455454455220414c492047414c492042414c554441),
  (54, 0x307831383836090920333333200923204d4f4e474f4c49414e204c455454455220414c492047414c492054485245452042414c554441),
  (39, 0x3078313838370909610923204d4f4e474f4c49414e204c455454455220414c492047414c492041),
  (39, 0x3078313838380909690923204d4f4e474f4c49414e204c455454455220414c492047414c492049),
  (40, 0x30783138383909096b0923204d4f4e474f4c49414e204c455454455220414c492047414c49204b41),
  (42, 0x30783138384109096e670923204d4f4e474f4c49414e204c455454455220414c492047414c49204e4741),
  (40, 0x3078313838420909630923204d4f4e474f4c49414e204c455454455220414c492047414c49204341),
  (42, 0x307831383843090974740923204d4f4e474f4c49414e204c455454455220414c492047414c4920545441),
  (44, 0x30783138384409097474680923204d4f4e474f4c49414e204c455454455220414c492047414c492054544841),
  (42, 0x307831383845090964640923204d4f4e474f4c49414e204c455454455220414c492047414c4920444441),
  (42, 0x30783138384609096e6e0923204d4f4e474f4c49414e204c455454455220414c492047414c49204e4e41),
  (0, 0x0),
  (40, 0x3078313839300909740923204d4f4e474f4c49414e204c455454455220414c492047414c49205441),
  (40, 0x3078313839310909640923204d4f4e474f4c49414e204c455454455220414c492047414c49204441),
  (40, 0x3078313839320909700923204d4f4e474f4c49414e204c455454455220414c492047414c49205041),
  (42, 0x307831383933090970680923204d4f4e474f4c49414e204c455454455220414c492047414c4920504841),
  (42, 0x307831383934090973730923204d4f4e474f4c49414e204c455454455220414c492047414c4920535341),
  (42, 0x30783138393509097a680923204d4f4e474f4c49414e204c455454455220414c492047414c49205a4841),
  (40, 0x30783138393609097a0923204d4f4e474f4c49414e204c455454455220414c492047414c49205a41),
  (40, 0x3078313839370909610923204d4f4e474f4c49414e204c455454455220414c492047414c49204148),
  (45, 0x3078313839380909740923204d4f4e474f4c49414e204c455454455220544f444f20414c492047414c49205441),
  (47, 0x30783138393909097a680923204d4f4e474f4c49414e204c455454455220544f444f20414c492047414c49205a4841),
  (49, 0x307831383941090967680923204d4f4e474f4c49414e204c4554544552204d414e43485520414c492047414c4920474841),
  (49, 0x30783138394209096e670923204d4f4e474f4c49414e204c4554544552204d414e43485520414c492047414c49204e4741),
  (47, 0x3078313839430909630923204d4f4e474f4c49414e204c4554544552204d414e43485520414c492047414c49204341),
  (49, 0x30783138394409096a680923204d4f4e474f4c49414e204c4554544552204d414e43485520414c492047414c49204a4841),
  (50, 0x30783138394509097474610923204d4f4e474f4c49414e204c4554544552204d414e43485520414c492047414c4920545441),
  (51, 0x30783138394609096464680923204d4f4e474f4c49414e204c4554544552204d414e43485520414c492047414c492044444841),
  (0, 0x0),
  (47, 0x3078313841300909740923204d4f4e474f4c49414e204c4554544552204d414e43485520414c492047414c49205441),
  (49, 0x307831384131090964680923204d4f4e474f4c49414e204c4554544552204d414e43485520414c492047414c4920444841),
  (49, 0x307831384132090973730923204d4f4e474f4c49414e204c4554544552204d414e43485520414c492047414c4920535341),
  (49, 0x307831384133090963790923204d4f4e474f4c49414e204c4554544552204d414e43485520414c492047414c4920435941),
  (49, 0x30783138413409097a680923204d4f4e474f4c49414e204c4554544552204d414e43485520414c492047414c49205a4841),
  (47, 0x30783138413509097a0923204d4f4e474f4c49414e204c4554544552204d414e43485520414c492047414c49205a41),
  (44, 0x3078313841360909750923204d4f4e474f4c49414e204c455454455220414c492047414c492048414c462055),
  (45, 0x3078313841370909790923204d4f4e474f4c49414e204c455454455220414c492047414c492048414c46205941),
  (49, 0x307831384138090962680923204d4f4e474f4c49414e204c4554544552204d414e43485520414c492047414c4920424841),
  (47, 0x30783138413909092227220923204d4f4e474f4c49414e204c455454455220414c492047414c4920444147414c4741),
  (0, 0x0),
  (1, 0x23),
  (29, 0x2320436861726163746572732030783139303020746f20307831394646),
  (1, 0x23),
  (0, 0x0),
  (31, 0x30783139343509093f0923204c494d4255205155455354494f4e204d41524b),
  (0, 0x0),
  (1, 0x23),
  (29, 0x2320436861726163746572732030783141303020746f20307831414646),
  (1, 0x23),
  (0, 0x0),
  (1, 0x23)]

/-- Lines 4719-4818 of table/legacy/unidecode.tbl. -/
def legacy_unidecode_49 : List (Nat × Nat) := [
  (29, 0x2320436861726163746572732030783142303020746f20307831424646),
  (1, 0x23),
  (0, 0x0),
  (1, 0x23),
  (29, 0x2320436861726163746572732030783143303020746f20307831434646),
  (1, 0x23),
  (0, 0x0),
  (1, 0x23),
  (29, 0x2320436861726163746572732030783144303020746f20307831444646),
  (1, 0x23),
  (0, 0x0),
  (1, 0x23),
  (29, 0x2320436861726163746572732030783145303020746f20307831454646),
  (1, 0x23),
  (0, 0x0),
  (50, 0x3078314530300909410923204c4154494e204341504954414c204c4554544552204120574954482052494e472042454c4f57),
  (48, 0x3078314530310909610923204c4154494e20534d414c4c204c4554544552204120574954482052494e472042454c4f57),
  (49, 0x3078314530320909420923204c4154494e204341504954414c204c45545445522042205749544820444f542041424f5645),
  (47, 0x3078314530330909620923204c4154494e20534d414c4c204c45545445522042205749544820444f542041424f5645),
  (49, 0x3078314530340909420923204c4154494e204341504954414c204c45545445522042205749544820444f542042454c4f57),
  (47, 0x3078314530350909620923204c4154494e20534d414c4c204c45545445522042205749544820444f542042454c4f57),
  (50, 0x3078314530360909420923204c4154494e204341504954414c204c455454455220422057495448204c494e452042454c4f57),
  (48, 0x3078314530370909620923204c4154494e20534d414c4c204c455454455220422057495448204c494e452042454c4f57),
  (57, 0x3078314530380909430923204c4154494e204341504954414c204c45545445522043205749544820434544494c4c4120414e44204143555445),
  (55, 0x3078314530390909630923204c4154494e20534d414c4c204c45545445522043205749544820434544494c4c4120414e44204143555445),
  (49, 0x3078314530410909440923204c4154494e204341504954414c204c45545445522044205749544820444f542041424f5645),
  (47, 0x3078314530420909640923204c4154494e20534d414c4c204c45545445522044205749544820444f542041424f5645),
  (49, 0x3078314530430909440923204c4154494e204341504954414c204c45545445522044205749544820444f542042454c4f57),
  (47, 0x3078314530440909640923204c4154494e20534d414c4c204c45545445522044205749544820444f542042454c4f57),
  (50, 0x3078314530450909440923204c4154494e204341504954414c204c455454455220442057495448204c494e452042454c4f57),
  (48, 0x3078314530460909640923204c4154494e20534d414c4c204c455454455220442057495448204c494e452042454c4f57),
  (0, 0x0),
  (47, 0x3078314531300909440923204c4154494e204341504954414c204c45545445522044205749544820434544494c4c41),
  (45, 0x3078314531310909640923204c4154494e20534d414c4c204c45545445522044205749544820434544494c4c41),
  (56, 0x3078314531320909440923204c4154494e204341504954414c204c4554544552204420574954482043495243554d464c45582042454c4f57),
  (54, 0x3078314531330909640923204c4154494e20534d414c4c204c4554544552204420574954482043495243554d464c45582042454c4f57),
  (56, 0x3078314531340909450923204c4154494e204341504954414c204c455454455220452057495448204d4143524f4e20414e44204752415645),
  (54, 0x3078314531350909650923204c4154494e20534d414c4c204c455454455220452057495448204d4143524f4e20414e44204752415645),
  (56, 0x3078314531360909450923204c4154494e204341504954414c204c455454455220452057495448204d4143524f4e20414e44204143555445),
  (54, 0x3078314531370909650923204c4154494e20534d414c4c204c455454455220452057495448204d4143524f4e20414e44204143555445),
  (56, 0x3078314531380909450923204c4154494e204341504954414c204c4554544552204520574954482043495243554d464c45582042454c4f57),
  (54, 0x3078314531390909650923204c4154494e20534d414c4c204c4554544552204520574954482043495243554d464c45582042454c4f57),
  (51, 0x3078314531410909450923204c4154494e204341504954414c204c4554544552204520574954482054494c44452042454c4f57),
  (49, 0x3078314531420909650923204c4154494e20534d414c4c204c4554544552204520574954482054494c44452042454c4f57),
  (57, 0x3078314531430909450923204c4154494e204341504954414c204c45545445522045205749544820434544494c4c4120414e44204252455645),
  (55, 0x3078314531440909650923204c4154494e20534d414c4c204c45545445522045205749544820434544494c4c4120414e44204252455645),
  (49, 0x3078314531450909460923204c4154494e204341504954414c204c45545445522046205749544820444f542041424f5645),
  (47, 0x3078314531460909660923204c4154494e20534d414c4c204c45545445522046205749544820444f542041424f5645),
  (0, 0x0),
  (46, 0x3078314532300909470923204c4154494e204341504954414c204c455454455220472057495448204d4143524f4e),
  (44, 0x3078314532310909670923204c4154494e20534d414c4c204c455454455220472057495448204d4143524f4e),
  (49, 0x3078314532320909480923204c4154494e204341504954414c204c45545445522048205749544820444f542041424f5645),
  (47, 0x3078314532330909680923204c4154494e20534d414c4c204c45545445522048205749544820444f542041424f5645),
  (49, 0x3078314532340909480923204c4154494e204341504954414c204c45545445522048205749544820444f542042454c4f57),
  (47, 0x3078314532350909680923204c4154494e20534d414c4c204c45545445522048205749544820444f542042454c4f57),
  (49, 0x3078314532360909480923204c4154494e204341504954414c204c45545445522048205749544820444941455245534953),
  (47, 0x3078314532370909680923204c4154494e20534d414c4c204c45545445522048205749544820444941455245534953),
  (47, 0x3078314532380909480923204c4154494e204341504954414c204c45545445522048205749544820434544494c4c41),
  (45, 0x3078314532390909680923204c4154494e20534d414c4c204c45545445522048205749544820434544494c4c41),
  (51, 0x3078314532410909480923204c4154494e204341504954414c204c4554544552204820574954482042524556452042454c4f57),
  (49, 0x3078314532420909680923204c4154494e20534d414c4c204c4554544552204820574954482042524556452042454c4f57),
  (51, 0x3078314532430909490923204c4154494e204341504954414c204c4554544552204920574954482054494c44452042454c4f57),
  (49, 0x3078314532440909690923204c4154494e20534d414c4c204c4554544552204920574954482054494c44452042454c4f57),
  (59, 0x3078314532450909490923204c4154494e204341504954414c204c4554544552204920574954482044494145524553495320414e44204143555445),
  (57, 0x3078314532460909690923204c4154494e20534d414c4c204c4554544552204920574954482044494145524553495320414e44204143555445),
  (0, 0x0),
  (45, 0x30783145333009094b0923204c4154494e204341504954414c204c4554544552204b2057495448204143555445),
  (43, 0x30783145333109096b0923204c4154494e20534d414c4c204c4554544552204b2057495448204143555445),
  (49, 0x30783145333209094b0923204c4154494e204341504954414c204c4554544552204b205749544820444f542042454c4f57),
  (47, 0x30783145333309096b0923204c4154494e20534d414c4c204c4554544552204b205749544820444f542042454c4f57),
  (50, 0x30783145333409094b0923204c4154494e204341504954414c204c4554544552204b2057495448204c494e452042454c4f57),
  (48, 0x30783145333509096b0923204c4154494e20534d414c4c204c4554544552204b2057495448204c494e452042454c4f57),
  (49, 0x30783145333609094c0923204c4154494e204341504954414c204c4554544552204c205749544820444f542042454c4f57),
  (47, 0x30783145333709096c0923204c4154494e20534d414c4c204c4554544552204c205749544820444f542042454c4f57),
  (60, 0x30783145333809094c0923204c4154494e204341504954414c204c4554544552204c205749544820444f542042454c4f5720414e44204d4143524f4e),
  (58, 0x30783145333909096c0923204c4154494e20534d414c4c204c4554544552204c205749544820444f542042454c4f5720414e44204d4143524f4e),
  (50, 0x30783145334109094c0923204c4154494e204341504954414c204c4554544552204c2057495448204c494e452042454c4f57),
  (48, 0x30783145334209096c0923204c4154494e20534d414c4c204c4554544552204c2057495448204c494e452042454c4f57),
  (56, 0x30783145334309094c0923204c4154494e204341504954414c204c4554544552204c20574954482043495243554d464c45582042454c4f57),
  (54, 0x30783145334409096c0923204c4154494e20534d414c4c204c4554544552204c20574954482043495243554d464c45582042454c4f57),
  (45, 0x30783145334509094d0923204c4154494e204341504954414c204c4554544552204d2057495448204143555445),
  (43, 0x30783145334609096d0923204c4154494e20534d414c4c204c4554544552204d2057495448204143555445),
  (0, 0x0),
  (49, 0x30783145343009094d0923204c4154494e204341504954414c204c4554544552204d205749544820444f542041424f5645),
  (47, 0x30783145343109096d0923204c4154494e20534d414c4c204c4554544552204d205749544820444f542041424f5645),
  (49, 0x30783145343209094d0923204c4154494e204341504954414c204c4554544552204d205749544820444f542042454c4f57),
  (47, 0x30783145343309096d0923204c4154494e20534d414c4c204c4554544552204d205749544820444f542042454c4f57),
  (49, 0x30783145343409094e0923204c4154494e204341504954414c204c4554544552204e205749544820444f542041424f5645),
  (47, 0x30783145343509096e0923204c4154494e20534d414c4c204c4554544552204e205749544820444f542041424f5645),
  (49, 0x30783145343609094e0923204c4154494e204341504954414c204c4554544552204e205749544820444f542042454c4f57),
  (47, 0x30783145343709096e0923204c4154494e20534d414c4c204c4554544552204e205749544820444f542042454c4f57),
  (50, 0x30783145343809094e0923204c4154494e204341504954414c204c4554544552204e2057495448204c494e452042454c4f57),
  (48, 0x30783145343909096e0923204c4154494e20534d414c4c204c4554544552204e2057495448204c494e452042454c4f57),
  (56, 0x30783145344109094e0923204c4154494e204341504954414c204c4554544552204e20574954482043495243554d464c45582042454c4f57),
  (54, 0x30783145344209096e0923204c4154494e20534d414c4c204c4554544552204e20574954482043495243554d464c45582042454c4f57),
  (55, 0x30783145344309094f0923204c4154494e204341504954414c204c4554544552204f20574954482054494c444520414e44204143555445),
  (53, 0x30783145344409096f0923204c4154494e20534d414c4c204c4554544552204f20574954482054494c444520414e44204143555445),
  (59, 0x30783145344509094f0923204c4154494e204341504954414c204c4554544552204f20574954482054494c444520414e4420444941455245534953),
  (57, 0x30783145344609096f0923204c4154494e20534d414c4c204c4554544552204f20574954482054494c444520414e4420444941455245534953),
  (0, 0x0)]

/-- Lines 4819-4918 of table/legacy/unidecode.tbl. -/
def legacy_unidecode_50 : List (Nat × Nat) := [
  (56, 0x30783145353009094f0923204c4154494e204341504954414c204c4554544552204f2057495448204d4143524f4e20414e44204752415645),
  (54, 0x30783145353109096f0923204c4154494e20534d414c4c204c4554544552204f2057495448204d4143524f4e20414e44204752415645),
  (56, 0x30783145353209094f0923204c4154494e204341504954414c204c4554544552204f2057495448204d4143524f4e20414e44204143555445),
  (54, 0x30783145353309096f0923204c4154494e20534d414c4c204c4554544552204f2057495448204d4143524f4e20414e44204143555445),
  (45, 0x3078314535340909500923204c4154494e204341504954414c204c455454455220502057495448204143555445),
  (43, 0x3078314535350909700923204c4154494e20534d414c4c204c455454455220502057495448204143555445),
  (49, 0x3078314535360909500923204c4154494e204341504954414c204c45545445522050205749544820444f542041424f5645),
  (47, 0x3078314535370909700923204c4154494e20534d414c4c204c45545445522050205749544820444f542041424f5645),
  (49, 0x3078314535380909520923204c4154494e204341504954414c204c45545445522052205749544820444f542041424f5645),
  (47, 0x3078314535390909720923204c4154494e20534d414c4c204c45545445522052205749544820444f542041424f5645),
  (49, 0x3078314535410909520923204c4154494e204341504954414c204c45545445522052205749544820444f542042454c4f57),
  (47, 0x3078314535420909720923204c4154494e20534d414c4c204c45545445522052205749544820444f542042454c4f57),
  (60, 0x3078314535430909520923204c4154494e204341504954414c204c45545445522052205749544820444f542042454c4f5720414e44204d4143524f4e),
  (58, 0x3078314535440909720923204c4154494e20534d414c4c204c45545445522052205749544820444f542042454c4f5720414e44204d4143524f4e),
  (50, 0x3078314535450909520923204c4154494e204341504954414c204c455454455220522057495448204c494e452042454c4f57),
  (48, 0x3078314535460909720923204c4154494e20534d414c4c204c455454455220522057495448204c494e452042454c4f57),
  (0, 0x0),
  (49, 0x3078314536300909530923204c4154494e204341504954414c204c45545445522053205749544820444f542041424f5645),
  (47, 0x3078314536310909730923204c4154494e20534d414c4c204c45545445522053205749544820444f542041424f5645),
  (49, 0x3078314536320909530923204c4154494e204341504954414c204c45545445522053205749544820444f542042454c4f57),
  (47, 0x3078314536330909730923204c4154494e20534d414c4c204c45545445522053205749544820444f542042454c4f57),
  (59, 0x3078314536340909530923204c4154494e204341504954414c204c45545445522053205749544820414355544520414e4420444f542041424f5645),
  (57, 0x3078314536350909730923204c4154494e20534d414c4c204c45545445522053205749544820414355544520414e4420444f542041424f5645),
  (59, 0x3078314536360909530923204c4154494e204341504954414c204c455454455220532057495448204341524f4e20414e4420444f542041424f5645),
  (57, 0x3078314536370909730923204c4154494e20534d414c4c204c455454455220532057495448204341524f4e20414e4420444f542041424f5645),
  (63, 0x3078314536380909530923204c4154494e204341504954414c204c45545445522053205749544820444f542042454c4f5720414e4420444f542041424f5645),
  (61, 0x3078314536390909730923204c4154494e20534d414c4c204c45545445522053205749544820444f542042454c4f5720414e4420444f542041424f5645),
  (49, 0x3078314536410909540923204c4154494e204341504954414c204c45545445522054205749544820444f542041424f5645),
  (47, 0x3078314536420909740923204c4154494e20534d414c4c204c45545445522054205749544820444f542041424f5645),
  (49, 0x3078314536430909540923204c4154494e204341504954414c204c45545445522054205749544820444f542042454c4f57),
  (47, 0x3078314536440909740923204c4154494e20534d414c4c204c45545445522054205749544820444f542042454c4f57),
  (50, 0x3078314536450909540923204c4154494e204341504954414c204c455454455220542057495448204c494e452042454c4f57),
  (48, 0x3078314536460909740923204c4154494e20534d414c4c204c455454455220542057495448204c494e452042454c4f57),
  (0, 0x0),
  (56, 0x3078314537300909540923204c4154494e204341504954414c204c4554544552205420574954482043495243554d464c45582042454c4f57),
  (54, 0x3078314537310909740923204c4154494e20534d414c4c204c4554544552205420574954482043495243554d464c45582042454c4f57),
  (55, 0x3078314537320909550923204c4154494e204341504954414c204c455454455220552057495448204449414552455349532042454c4f57),
  (53, 0x3078314537330909750923204c4154494e20534d414c4c204c455454455220552057495448204449414552455349532042454c4f57),
  (51, 0x3078314537340909550923204c4154494e204341504954414c204c4554544552205520574954482054494c44452042454c4f57),
  (49, 0x3078314537350909750923204c4154494e20534d414c4c204c4554544552205520574954482054494c44452042454c4f57),
  (56, 0x3078314537360909550923204c4154494e204341504954414c204c4554544552205520574954482043495243554d464c45582042454c4f57),
  (54, 0x3078314537370909750923204c4154494e20534d414c4c204c4554544552205520574954482043495243554d464c45582042454c4f57),
  (55, 0x3078314537380909550923204c4154494e204341504954414c204c4554544552205520574954482054494c444520414e44204143555445),
  (53, 0x3078314537390909750923204c4154494e20534d414c4c204c4554544552205520574954482054494c444520414e44204143555445),
  (60, 0x3078314537410909550923204c4154494e204341504954414c204c455454455220552057495448204d4143524f4e20414e4420444941455245534953),
  (58, 0x3078314537420909750923204c4154494e20534d414c4c204c455454455220552057495448204d4143524f4e20414e4420444941455245534953),
  (45, 0x3078314537430909560923204c4154494e204341504954414c204c4554544552205620574954482054494c4445),
  (43, 0x3078314537440909760923204c4154494e20534d414c4c204c4554544552205620574954482054494c4445),
  (49, 0x3078314537450909560923204c4154494e204341504954414c204c45545445522056205749544820444f542042454c4f57),
  (47, 0x3078314537460909760923204c4154494e20534d414c4c204c45545445522056205749544820444f542042454c4f57),
  (0, 0x0),
  (45, 0x3078314538300909570923204c4154494e204341504954414c204c455454455220572057495448204752415645),
  (43, 0x3078314538310909770923204c4154494e20534d414c4c204c455454455220572057495448204752415645),
  (45, 0x3078314538320909570923204c4154494e204341504954414c204c455454455220572057495448204143555445),
  (43, 0x3078314538330909770923204c4154494e20534d414c4c204c455454455220572057495448204143555445),
  (49, 0x3078314538340909570923204c4154494e204341504954414c204c45545445522057205749544820444941455245534953),
  (47, 0x3078314538350909770923204c4154494e20534d414c4c204c45545445522057205749544820444941455245534953),
  (49, 0x3078314538360909570923204c4154494e204341504954414c204c45545445522057205749544820444f542041424f5645),
  (47, 0x3078314538370909770923204c4154494e20534d414c4c204c45545445522057205749544820444f542041424f5645),
  (49, 0x3078314538380909570923204c4154494e204341504954414c204c45545445522057205749544820444f542042454c4f57),
  (47, 0x3078314538390909770923204c4154494e20534d414c4c204c45545445522057205749544820444f542042454c4f57),
  (49, 0x3078314538410909580923204c4154494e204341504954414c204c45545445522058205749544820444f542041424f5645),
  (47, 0x3078314538420909780923204c4154494e20534d414c4c204c45545445522058205749544820444f542041424f5645),
  (49, 0x3078314538430909580923204c4154494e204341504954414c204c45545445522058205749544820444941455245534953),
  (47, 0x3078314538440909780923204c4154494e20534d414c4c204c45545445522058205749544820444941455245534953),
  (49, 0x3078314538450909590923204c4154494e204341504954414c204c45545445522059205749544820444f542041424f5645),
  (47, 0x3078314538460909790923204c4154494e20534d414c4c204c45545445522059205749544820444f542041424f5645),
  (0, 0x0),
  (50, 0x30783145393009095a0923204c4154494e204341504954414c204c4554544552205a20574954482043495243554d464c4558),
  (48, 0x30783145393109097a0923204c4154494e20534d414c4c204c4554544552205a20574954482043495243554d464c4558),
  (49, 0x30783145393209095a0923204c4154494e204341504954414c204c4554544552205a205749544820444f542042454c4f57),
  (47, 0x30783145393309097a0923204c4154494e20534d414c4c204c4554544552205a205749544820444f542042454c4f57),
  (50, 0x30783145393409095a0923204c4154494e204341504954414c204c4554544552205a2057495448204c494e452042454c4f57),
  (48, 0x30783145393509097a0923204c4154494e20534d414c4c204c4554544552205a2057495448204c494e452042454c4f57),
  (48, 0x3078314539360909680923204c4154494e20534d414c4c204c455454455220482057495448204c494e452042454c4f57),
  (47, 0x3078314539370909740923204c4154494e20534d414c4c204c45545445522054205749544820444941455245534953),
  (48, 0x3078314539380909770923204c4154494e20534d414c4c204c4554544552205720574954482052494e472041424f5645),
  (48, 0x3078314539390909790923204c4154494e20534d414c4c204c4554544552205920574954482052494e472041424f5645),
  (53, 0x3078314539410909610923204c4154494e20534d414c4c204c4554544552204120574954482052494748542048414c462052494e47),
  (52, 0x3078314539420909730923204c4154494e20534d414c4c204c4554544552204c4f4e472053205749544820444f542041424f5645),
  (58, 0x3078314539430909730923204c4154494e20534d414c4c204c4554544552204c4f4e472053205749544820444941474f4e414c205354524f4b45),
  (54, 0x3078314539440909730923204c4154494e20534d414c4c204c4554544552204c4f4e47205320574954482048494748205354524f4b45),
  (41, 0x307831453945090953730923204c4154494e204341504954414c204c45545445522053484152502053),
  (36, 0x3078314539460909640923204c4154494e20534d414c4c204c45545445522044454c5441),
  (0, 0x0),
  (49, 0x3078314541300909410923204c4154494e204341504954414c204c45545445522041205749544820444f542042454c4f57),
  (47, 0x3078314541310909610923204c4154494e20534d414c4c204c45545445522041205749544820444f542042454c4f57),
  (50, 0x3078314541320909410923204c4154494e204341504954414c204c45545445522041205749544820484f4f4b2041424f5645),
  (48, 0x3078314541330909610923204c4154494e20534d414c4c204c45545445522041205749544820484f4f4b2041424f5645),
  (60, 0x3078314541340909410923204c4154494e204341504954414c204c4554544552204120574954482043495243554d464c455820414e44204143555445),
  (58, 0x3078314541350909610923204c4154494e20534d414c4c204c4554544552204120574954482043495243554d464c455820414e44204143555445),
  (60, 0x3078314541360909410923204c4154494e204341504954414c204c4554544552204120574954482043495243554d464c455820414e44204752415645),
  (58, 0x3078314541370909610923204c4154494e20534d414c4c204c4554544552204120574954482043495243554d464c455820414e44204752415645),
  (65, 0x3078314541380909410923204c4154494e204341504954414c204c4554544552204120574954482043495243554d464c455820414e4420484f4f4b2041424f5645),
  (63, 0x3078314541390909610923204c4154494e20534d414c4c204c4554544552204120574954482043495243554d464c455820414e4420484f4f4b2041424f5645),
  (60, 0x3078314541410909410923204c4154494e204341504954414c204c4554544552204120574954482043495243554d464c455820414e442054494c4445),
  (58, 0x3078314541420909610923204c4154494e20534d414c4c204c4554544552204120574954482043495243554d464c455820414e442054494c4445),
  (64, 0x3078314541430909410923204c4154494e204341504954414c204c4554544552204120574954482043495243554d464c455820414e4420444f542042454c4f57),
  (62, 0x3078314541440909610923204c4154494e20534d414c4c204c4554544552204120574954482043495243554d464c455820414e4420444f542042454c4f57),
  (55, 0x3078314541450909410923204c4154494e204341504954414c204c45545445522041205749544820425245564520414e44204143555445)]

/-- Lines 4919-5018 of table/legacy/unidecode.tbl. -/
def legacy_unidecode_51 : List (Nat × Nat) := [
  (53, 0x3078314541460909610923204c4154494e20534d414c4c204c45545445522041205749544820425245564520414e44204143555445),
  (0, 0x0),
  (55, 0x3078314542300909410923204c4154494e204341504954414c204c45545445522041205749544820425245564520414e44204752415645),
  (53, 0x3078314542310909610923204c4154494e20534d414c4c204c45545445522041205749544820425245564520414e44204752415645),
  (60, 0x3078314542320909410923204c4154494e204341504954414c204c45545445522041205749544820425245564520414e4420484f4f4b2041424f5645),
  (58, 0x3078314542330909610923204c4154494e20534d414c4c204c45545445522041205749544820425245564520414e4420484f4f4b2041424f5645),
  (55, 0x3078314542340909410923204c4154494e204341504954414c204c45545445522041205749544820425245564520414e442054494c4445),
  (53, 0x3078314542350909610923204c4154494e20534d414c4c204c45545445522041205749544820425245564520414e442054494c4445),
  (59, 0x3078314542360909410923204c4154494e204341504954414c204c45545445522041205749544820425245564520414e4420444f542042454c4f57),
  (57, 0x3078314542370909610923204c4154494e20534d414c4c204c45545445522041205749544820425245564520414e4420444f542042454c4f57),
  (49, 0x3078314542380909450923204c4154494e204341504954414c204c45545445522045205749544820444f542042454c4f57),
  (47, 0x3078314542390909650923204c4154494e20534d414c4c204c45545445522045205749544820444f542042454c4f57),
  (50, 0x3078314542410909450923204c4154494e204341504954414c204c45545445522045205749544820484f4f4b2041424f5645),
  (48, 0x3078314542420909650923204c4154494e20534d414c4c204c45545445522045205749544820484f4f4b2041424f5645),
  (45, 0x3078314542430909450923204c4154494e204341504954414c204c4554544552204520574954482054494c4445),
  (43, 0x3078314542440909650923204c4154494e20534d414c4c204c4554544552204520574954482054494c4445),
  (60, 0x3078314542450909450923204c4154494e204341504954414c204c4554544552204520574954482043495243554d464c455820414e44204143555445),
  (58, 0x3078314542460909650923204c4154494e20534d414c4c204c4554544552204520574954482043495243554d464c455820414e44204143555445),
  (0, 0x0),
  (60, 0x3078314543300909450923204c4154494e204341504954414c204c4554544552204520574954482043495243554d464c455820414e44204752415645),
  (58, 0x3078314543310909650923204c4154494e20534d414c4c204c4554544552204520574954482043495243554d464c455820414e44204752415645),
  (65, 0x3078314543320909450923204c4154494e204341504954414c204c4554544552204520574954482043495243554d464c455820414e4420484f4f4b2041424f5645),
  (63, 0x3078314543330909650923204c4154494e20534d414c4c204c4554544552204520574954482043495243554d464c455820414e4420484f4f4b2041424f5645),
  (60, 0x3078314543340909450923204c4154494e204341504954414c204c4554544552204520574954482043495243554d464c455820414e442054494c4445),
  (58, 0x3078314543350909650923204c4154494e20534d414c4c204c4554544552204520574954482043495243554d464c455820414e442054494c4445),
  (64, 0x3078314543360909450923204c4154494e204341504954414c204c4554544552204520574954482043495243554d464c455820414e4420444f542042454c4f57),
  (62, 0x3078314543370909650923204c4154494e20534d414c4c204c4554544552204520574954482043495243554d464c455820414e4420444f542042454c4f57),
  (50, 0x3078314543380909490923204c4154494e204341504954414c204c45545445522049205749544820484f4f4b2041424f5645),
  (48, 0x3078314543390909690923204c4154494e20534d414c4c204c45545445522049205749544820484f4f4b2041424f5645),
  (49, 0x3078314543410909490923204c4154494e204341504954414c204c45545445522049205749544820444f542042454c4f57),
  (47, 0x3078314543420909690923204c4154494e20534d414c4c204c45545445522049205749544820444f542042454c4f57),
  (49, 0x30783145434309094f0923204c4154494e204341504954414c204c4554544552204f205749544820444f542042454c4f57),
  (47, 0x30783145434409096f0923204c4154494e20534d414c4c204c4554544552204f205749544820444f542042454c4f57),
  (50, 0x30783145434509094f0923204c4154494e204341504954414c204c4554544552204f205749544820484f4f4b2041424f5645),
  (48, 0x30783145434609096f0923204c4154494e20534d414c4c204c4554544552204f205749544820484f4f4b2041424f5645),
  (0, 0x0),
  (60, 0x30783145443009094f0923204c4154494e204341504954414c204c4554544552204f20574954482043495243554d464c455820414e44204143555445),
  (58, 0x30783145443109096f0923204c4154494e20534d414c4c204c4554544552204f20574954482043495243554d464c455820414e44204143555445),
  (60, 0x30783145443209094f0923204c4154494e204341504954414c204c4554544552204f20574954482043495243554d464c455820414e44204752415645),
  (58, 0x30783145443309096f0923204c4154494e20534d414c4c204c4554544552204f20574954482043495243554d464c455820414e44204752415645),
  (65, 0x30783145443409094f0923204c4154494e204341504954414c204c4554544552204f20574954482043495243554d464c455820414e4420484f4f4b2041424f5645),
  (63, 0x30783145443509096f0923204c4154494e20534d414c4c204c4554544552204f20574954482043495243554d464c455820414e4420484f4f4b2041424f5645),
  (60, 0x30783145443609094f0923204c4154494e204341504954414c204c4554544552204f20574954482043495243554d464c455820414e442054494c4445),
  (58, 0x30783145443709096f0923204c4154494e20534d414c4c204c4554544552204f20574954482043495243554d464c455820414e442054494c4445),
  (64, 0x30783145443809094f0923204c4154494e204341504954414c204c4554544552204f20574954482043495243554d464c455820414e4420444f542042454c4f57),
  (62, 0x30783145443909096f0923204c4154494e20534d414c4c204c4554544552204f20574954482043495243554d464c455820414e4420444f542042454c4f57),
  (54, 0x30783145444109094f0923204c4154494e204341504954414c204c4554544552204f205749544820484f524e20414e44204143555445),
  (52, 0x30783145444209096f0923204c4154494e20534d414c4c204c4554544552204f205749544820484f524e20414e44204143555445),
  (54, 0x30783145444309094f0923204c4154494e204341504954414c204c4554544552204f205749544820484f524e20414e44204752415645),
  (52, 0x30783145444409096f0923204c4154494e20534d414c4c204c4554544552204f205749544820484f524e20414e44204752415645),
  (59, 0x30783145444509094f0923204c4154494e204341504954414c204c4554544552204f205749544820484f524e20414e4420484f4f4b2041424f5645),
  (57, 0x30783145444609096f0923204c4154494e20534d414c4c204c4554544552204f205749544820484f524e20414e4420484f4f4b2041424f5645),
  (0, 0x0),
  (54, 0x30783145453009094f0923204c4154494e204341504954414c204c4554544552204f205749544820484f524e20414e442054494c4445),
  (52, 0x30783145453109096f0923204c4154494e20534d414c4c204c4554544552204f205749544820484f524e20414e442054494c4445),
  (58, 0x30783145453209094f0923204c4154494e204341504954414c204c4554544552204f205749544820484f524e20414e4420444f542042454c4f57),
  (56, 0x30783145453309096f0923204c4154494e20534d414c4c204c4554544552204f205749544820484f524e20414e4420444f542042454c4f57),
  (49, 0x3078314545340909550923204c4154494e204341504954414c204c45545445522055205749544820444f542042454c4f57),
  (47, 0x3078314545350909750923204c4154494e20534d414c4c204c45545445522055205749544820444f542042454c4f57),
  (50, 0x3078314545360909550923204c4154494e204341504954414c204c45545445522055205749544820484f4f4b2041424f5645),
  (48, 0x3078314545370909750923204c4154494e20534d414c4c204c45545445522055205749544820484f4f4b2041424f5645),
  (54, 0x3078314545380909550923204c4154494e204341504954414c204c45545445522055205749544820484f524e20414e44204143555445),
  (52, 0x3078314545390909750923204c4154494e20534d414c4c204c45545445522055205749544820484f524e20414e44204143555445),
  (54, 0x3078314545410909550923204c4154494e204341504954414c204c45545445522055205749544820484f524e20414e44204752415645),
  (52, 0x3078314545420909750923204c4154494e20534d414c4c204c45545445522055205749544820484f524e20414e44204752415645),
  (59, 0x3078314545430909550923204c4154494e204341504954414c204c45545445522055205749544820484f524e20414e4420484f4f4b2041424f5645),
  (57, 0x3078314545440909750923204c4154494e20534d414c4c204c45545445522055205749544820484f524e20414e4420484f4f4b2041424f5645),
  (54, 0x3078314545450909550923204c4154494e204341504954414c204c45545445522055205749544820484f524e20414e442054494c4445),
  (52, 0x3078314545460909750923204c4154494e20534d414c4c204c45545445522055205749544820484f524e20414e442054494c4445),
  (0, 0x0),
  (58, 0x3078314546300909550923204c4154494e204341504954414c204c45545445522055205749544820484f524e20414e4420444f542042454c4f57),
  (56, 0x3078314546310909750923204c4154494e20534d414c4c204c45545445522055205749544820484f524e20414e4420444f542042454c4f57),
  (45, 0x3078314546320909590923204c4154494e204341504954414c204c455454455220592057495448204752415645),
  (43, 0x3078314546330909790923204c4154494e20534d414c4c204c455454455220592057495448204752415645),
  (49, 0x3078314546340909590923204c4154494e204341504954414c204c45545445522059205749544820444f542042454c4f57),
  (47, 0x3078314546350909790923204c4154494e20534d414c4c204c45545445522059205749544820444f542042454c4f57),
  (50, 0x3078314546360909590923204c4154494e204341504954414c204c45545445522059205749544820484f4f4b2041424f5645),
  (48, 0x3078314546370909790923204c4154494e20534d414c4c204c45545445522059205749544820484f4f4b2041424f5645),
  (45, 0x3078314546380909590923204c4154494e204341504954414c204c4554544552205920574954482054494c4445),
  (43, 0x3078314546390909790923204c4154494e20534d414c4c204c4554544552205920574954482054494c4445),
  (0, 0x0),
  (1, 0x23),
  (29, 0x2320436861726163746572732030783146303020746f20307831464646),
  (1, 0x23),
  (0, 0x0),
  (47, 0x307831463030090961092320475245454b20534d414c4c204c455454455220414c5048412057495448205053494c49),
  (47, 0x307831463031090961092320475245454b20534d414c4c204c455454455220414c5048412057495448204441534941),
  (57, 0x307831463032090961092320475245454b20534d414c4c204c455454455220414c5048412057495448205053494c4920414e44205641524941),
  (57, 0x307831463033090961092320475245454b20534d414c4c204c455454455220414c504841205749544820444153494120414e44205641524941),
  (56, 0x307831463034090961092320475245454b20534d414c4c204c455454455220414c5048412057495448205053494c4920414e44204f584941),
  (56, 0x307831463035090961092320475245454b20534d414c4c204c455454455220414c504841205749544820444153494120414e44204f584941),
  (63, 0x307831463036090961092320475245454b20534d414c4c204c455454455220414c5048412057495448205053494c4920414e44205045524953504f4d454e49),
  (63, 0x307831463037090961092320475245454b20534d414c4c204c455454455220414c504841205749544820444153494120414e44205045524953504f4d454e49),
  (49, 0x307831463038090941092320475245454b204341504954414c204c455454455220414c5048412057495448205053494c49),
  (49, 0x307831463039090941092320475245454b204341504954414c204c455454455220414c5048412057495448204441534941),
  (59, 0x307831463041090941092320475245454b204341504954414c204c455454455220414c5048412057495448205053494c4920414e44205641524941),
  (59, 0x307831463042090941092320475245454b204341504954414c204c455454455220414c504841205749544820444153494120414e44205641524941),
  (58, 0x307831463043090941092320475245454b204341504954414c204c455454455220414c5048412057495448205053494c4920414e44204f584941),
  (58, 0x307831463044090941092320475245454b204341504954414c204c455454455220414c504841205749544820444153494120414e44204f584941),
  (65, 0x307831463045090941092320475245454b204341504954414c204c455454455220414c5048412057495448205053494c4920414e44205045524953504f4d454e49)]

/-- Lines 5019-5118 of table/legacy/unidecode.tbl. -/
def legacy_unidecode_52 : List (Nat × Nat) := [
  (65, 0x307831463046090941092320475245454b204341504954414c204c455454455220414c504841205749544820444153494120414e44205045524953504f4d454e49),
  (0, 0x0),
  (49, 0x307831463130090965092320475245454b20534d414c4c204c455454455220455053494c4f4e2057495448205053494c49),
  (49, 0x307831463131090965092320475245454b20534d414c4c204c455454455220455053494c4f4e2057495448204441534941),
  (59, 0x307831463132090965092320475245454b20534d414c4c204c455454455220455053494c4f4e2057495448205053494c4920414e44205641524941),
  (59, 0x307831463133090965092320475245454b20534d414c4c204c455454455220455053494c4f4e205749544820444153494120414e44205641524941),
  (58, 0x307831463134090965092320475245454b20534d414c4c204c455454455220455053494c4f4e2057495448205053494c4920414e44204f584941),
  (58, 0x307831463135090965092320475245454b20534d414c4c204c455454455220455053494c4f4e205749544820444153494120414e44204f584941),
  (51, 0x307831463138090945092320475245454b204341504954414c204c455454455220455053494c4f4e2057495448205053494c49),
  (51, 0x307831463139090945092320475245454b204341504954414c204c455454455220455053494c4f4e2057495448204441534941),
  (61, 0x307831463141090945092320475245454b204341504954414c204c455454455220455053494c4f4e2057495448205053494c4920414e44205641524941),
  (61, 0x307831463142090945092320475245454b204341504954414c204c455454455220455053494c4f4e205749544820444153494120414e44205641524941),
  (60, 0x307831463143090945092320475245454b204341504954414c204c455454455220455053494c4f4e2057495448205053494c4920414e44204f584941),
  (60, 0x307831463144090945092320475245454b204341504954414c204c455454455220455053494c4f4e205749544820444153494120414e44204f584941),
  (0, 0x0),
  (45, 0x307831463230090965092320475245454b20534d414c4c204c4554544552204554412057495448205053494c49),
  (45, 0x307831463231090965092320475245454b20534d414c4c204c4554544552204554412057495448204441534941),
  (55, 0x307831463232090965092320475245454b20534d414c4c204c4554544552204554412057495448205053494c4920414e44205641524941),
  (55, 0x307831463233090965092320475245454b20534d414c4c204c455454455220455441205749544820444153494120414e44205641524941),
  (54, 0x307831463234090965092320475245454b20534d414c4c204c4554544552204554412057495448205053494c4920414e44204f584941),
  (54, 0x307831463235090965092320475245454b20534d414c4c204c455454455220455441205749544820444153494120414e44204f584941),
  (61, 0x307831463236090965092320475245454b20534d414c4c204c4554544552204554412057495448205053494c4920414e44205045524953504f4d454e49),
  (61, 0x307831463237090965092320475245454b20534d414c4c204c455454455220455441205749544820444153494120414e44205045524953504f4d454e49),
  (47, 0x307831463238090945092320475245454b204341504954414c204c4554544552204554412057495448205053494c49),
  (47, 0x307831463239090945092320475245454b204341504954414c204c4554544552204554412057495448204441534941),
  (57, 0x307831463241090945092320475245454b204341504954414c204c4554544552204554412057495448205053494c4920414e44205641524941),
  (57, 0x307831463242090945092320475245454b204341504954414c204c455454455220455441205749544820444153494120414e44205641524941),
  (56, 0x307831463243090945092320475245454b204341504954414c204c4554544552204554412057495448205053494c4920414e44204f584941),
  (56, 0x307831463244090945092320475245454b204341504954414c204c455454455220455441205749544820444153494120414e44204f584941),
  (63, 0x307831463245090945092320475245454b204341504954414c204c4554544552204554412057495448205053494c4920414e44205045524953504f4d454e49),
  (63, 0x307831463246090945092320475245454b204341504954414c204c455454455220455441205749544820444153494120414e44205045524953504f4d454e49),
  (0, 0x0),
  (46, 0x307831463330090969092320475245454b20534d414c4c204c455454455220494f54412057495448205053494c49),
  (46, 0x307831463331090969092320475245454b20534d414c4c204c455454455220494f54412057495448204441534941),
  (56, 0x307831463332090969092320475245454b20534d414c4c204c455454455220494f54412057495448205053494c4920414e44205641524941),
  (56, 0x307831463333090969092320475245454b20534d414c4c204c455454455220494f5441205749544820444153494120414e44205641524941),
  (55, 0x307831463334090969092320475245454b20534d414c4c204c455454455220494f54412057495448205053494c4920414e44204f584941),
  (55, 0x307831463335090969092320475245454b20534d414c4c204c455454455220494f5441205749544820444153494120414e44204f584941),
  (62, 0x307831463336090969092320475245454b20534d414c4c204c455454455220494f54412057495448205053494c4920414e44205045524953504f4d454e49),
  (62, 0x307831463337090969092320475245454b20534d414c4c204c455454455220494f5441205749544820444153494120414e44205045524953504f4d454e49),
  (48, 0x307831463338090949092320475245454b204341504954414c204c455454455220494f54412057495448205053494c49),
  (48, 0x307831463339090949092320475245454b204341504954414c204c455454455220494f54412057495448204441534941),
  (58, 0x307831463341090949092320475245454b204341504954414c204c455454455220494f54412057495448205053494c4920414e44205641524941),
  (58, 0x307831463342090949092320475245454b204341504954414c204c455454455220494f5441205749544820444153494120414e44205641524941),
  (57, 0x307831463343090949092320475245454b204341504954414c204c455454455220494f54412057495448205053494c4920414e44204f584941),
  (57, 0x307831463344090949092320475245454b204341504954414c204c455454455220494f5441205749544820444153494120414e44204f584941),
  (64, 0x307831463345090949092320475245454b204341504954414c204c455454455220494f54412057495448205053494c4920414e44205045524953504f4d454e49),
  (64, 0x307831463346090949092320475245454b204341504954414c204c455454455220494f5441205749544820444153494120414e44205045524953504f4d454e49),
  (0, 0x0),
  (49, 0x30783146343009096f092320475245454b20534d414c4c204c4554544552204f4d4943524f4e2057495448205053494c49),
  (49, 0x30783146343109096f092320475245454b20534d414c4c204c4554544552204f4d4943524f4e2057495448204441534941),
  (59, 0x30783146343209096f092320475245454b20534d414c4c204c4554544552204f4d4943524f4e2057495448205053494c4920414e44205641524941),
  (59, 0x30783146343309096f092320475245454b20534d414c4c204c4554544552204f4d4943524f4e205749544820444153494120414e44205641524941),
  (58, 0x30783146343409096f092320475245454b20534d414c4c204c4554544552204f4d4943524f4e2057495448205053494c4920414e44204f584941),
  (58, 0x30783146343509096f092320475245454b20534d414c4c204c4554544552204f4d4943524f4e205749544820444153494120414e44204f584941),
  (51, 0x30783146343809094f092320475245454b204341504954414c204c4554544552204f4d4943524f4e2057495448205053494c49),
  (51, 0x30783146343909094f092320475245454b204341504954414c204c4554544552204f4d4943524f4e2057495448204441534941),
  (61, 0x30783146344109094f092320475245454b204341504954414c204c4554544552204f4d4943524f4e2057495448205053494c4920414e44205641524941),
  (61, 0x30783146344209094f092320475245454b204341504954414c204c4554544552204f4d4943524f4e205749544820444153494120414e44205641524941),
  (60, 0x30783146344309094f092320475245454b204341504954414c204c4554544552204f4d4943524f4e2057495448205053494c4920414e44204f584941),
  (60, 0x30783146344409094f092320475245454b204341504954414c204c4554544552204f4d4943524f4e205749544820444153494120414e44204f584941),
  (0, 0x0),
  (49, 0x307831463530090975092320475245454b20534d414c4c204c455454455220555053494c4f4e2057495448205053494c49),
  (49, 0x307831463531090975092320475245454b20534d414c4c204c455454455220555053494c4f4e2057495448204441534941),
  (59, 0x307831463532090975092320475245454b20534d414c4c204c455454455220555053494c4f4e2057495448205053494c4920414e44205641524941),
  (59, 0x307831463533090975092320475245454b20534d414c4c204c455454455220555053494c4f4e205749544820444153494120414e44205641524941),
  (58, 0x307831463534090975092320475245454b20534d414c4c204c455454455220555053494c4f4e2057495448205053494c4920414e44204f584941),
  (58, 0x307831463535090975092320475245454b20534d414c4c204c455454455220555053494c4f4e205749544820444153494120414e44204f584941),
  (65, 0x307831463536090975092320475245454b20534d414c4c204c455454455220555053494c4f4e2057495448205053494c4920414e44205045524953504f4d454e49),
  (65, 0x307831463537090975092320475245454b20534d414c4c204c455454455220555053494c4f4e205749544820444153494120414e44205045524953504f4d454e49),
  (51, 0x307831463539090955092320475245454b204341504954414c204c455454455220555053494c4f4e2057495448204441534941),
  (61, 0x307831463542090955092320475245454b204341504954414c204c455454455220555053494c4f4e205749544820444153494120414e44205641524941),
  (60, 0x307831463544090955092320475245454b204341504954414c204c455454455220555053494c4f4e205749544820444153494120414e44204f584941),
  (67, 0x307831463546090955092320475245454b204341504954414c204c455454455220555053494c4f4e205749544820444153494120414e44205045524953504f4d454e49),
  (0, 0x0),
  (47, 0x30783146363009096f092320475245454b20534d414c4c204c4554544552204f4d4547412057495448205053494c49),
  (47, 0x30783146363109096f092320475245454b20534d414c4c204c4554544552204f4d4547412057495448204441534941),
  (57, 0x30783146363209096f092320475245454b20534d414c4c204c4554544552204f4d4547412057495448205053494c4920414e44205641524941),
  (57, 0x30783146363309096f092320475245454b20534d414c4c204c4554544552204f4d454741205749544820444153494120414e44205641524941),
  (56, 0x30783146363409096f092320475245454b20534d414c4c204c4554544552204f4d4547412057495448205053494c4920414e44204f584941),
  (56, 0x30783146363509096f092320475245454b20534d414c4c204c4554544552204f4d454741205749544820444153494120414e44204f584941),
  (63, 0x30783146363609096f092320475245454b20534d414c4c204c4554544552204f4d4547412057495448205053494c4920414e44205045524953504f4d454e49),
  (63, 0x30783146363709096f092320475245454b20534d414c4c204c4554544552204f4d454741205749544820444153494120414e44205045524953504f4d454e49),
  (49, 0x30783146363809094f092320475245454b204341504954414c204c4554544552204f4d4547412057495448205053494c49),
  (49, 0x30783146363909094f092320475245454b204341504954414c204c4554544552204f4d4547412057495448204441534941),
  (59, 0x30783146364109094f092320475245454b204341504954414c204c4554544552204f4d4547412057495448205053494c4920414e44205641524941),
  (59, 0x30783146364209094f092320475245454b204341504954414c204c4554544552204f4d454741205749544820444153494120414e44205641524941),
  (58, 0x30783146364309094f092320475245454b204341504954414c204c4554544552204f4d4547412057495448205053494c4920414e44204f584941),
  (58, 0x30783146364409094f092320475245454b204341504954414c204c4554544552204f4d454741205749544820444153494120414e44204f584941),
  (65, 0x30783146364509094f092320475245454b204341504954414c204c4554544552204f4d4547412057495448205053494c4920414e44205045524953504f4d454e49),
  (65, 0x30783146364609094f092320475245454b204341504954414c204c4554544552204f4d454741205749544820444153494120414e44205045524953504f4d454e49),
  (0, 0x0),
  (47, 0x307831463730090961092320475245454b20534d414c4c204c455454455220414c5048412057495448205641524941),
  (46, 0x307831463731090961092320475245454b20534d414c4c204c455454455220414c5048412057495448204f584941),
  (49, 0x307831463732090965092320475245454b20534d414c4c204c455454455220455053494c4f4e2057495448205641524941),
  (48, 0x307831463733090965092320475245454b20534d414c4c204c455454455220455053494c4f4e2057495448204f584941),
  (45, 0x307831463734090965092320475245454b20534d414c4c204c4554544552204554412057495448205641524941),
  (44, 0x307831463735090965092320475245454b20534d414c4c204c4554544552204554412057495448204f584941),
  (46, 0x307831463736090969092320475245454b20534d414c4c204c455454455220494f54412057495448205641524941),
  (45, 0x307831463737090969092320475245454b20534d414c4c204c455454455220494f54412057495448204f584941)]

/-- Lines 5119-5218 of table/legacy/unidecode.tbl. -/
def legacy_unidecode_53 : List (Nat × Nat) := [
  (49, 0x30783146373809096f092320475245454b20534d414c4c204c4554544552204f4d4943524f4e2057495448205641524941),
  (48, 0x30783146373909096f092320475245454b20534d414c4c204c4554544552204f4d4943524f4e2057495448204f584941),
  (49, 0x307831463741090975092320475245454b20534d414c4c204c455454455220555053494c4f4e2057495448205641524941),
  (48, 0x307831463742090975092320475245454b20534d414c4c204c455454455220555053494c4f4e2057495448204f584941),
  (47, 0x30783146374309096f092320475245454b20534d414c4c204c4554544552204f4d4547412057495448205641524941),
  (46, 0x30783146374409096f092320475245454b20534d414c4c204c4554544552204f4d4547412057495448204f584941),
  (0, 0x0),
  (65, 0x307831463830090961092320475245454b20534d414c4c204c455454455220414c5048412057495448205053494c4920414e442059504f47454752414d4d454e49),
  (65, 0x307831463831090961092320475245454b20534d414c4c204c455454455220414c504841205749544820444153494120414e442059504f47454752414d4d454e49),
  (75, 0x307831463832090961092320475245454b20534d414c4c204c455454455220414c5048412057495448205053494c4920414e4420564152494120414e442059504f47454752414d4d454e49),
  (75, 0x307831463833090961092320475245454b20534d414c4c204c455454455220414c504841205749544820444153494120414e4420564152494120414e442059504f47454752414d4d454e49),
  (74, 0x307831463834090961092320475245454b20534d414c4c204c455454455220414c5048412057495448205053494c4920414e44204f58494120414e442059504f47454752414d4d454e49),
  (74, 0x307831463835090961092320475245454b20534d414c4c204c455454455220414c504841205749544820444153494120414e44204f58494120414e442059504f47454752414d4d454e49),
  (81, 0x307831463836090961092320475245454b20534d414c4c204c455454455220414c5048412057495448205053494c4920414e44205045524953504f4d454e4920414e442059504f47454752414d4d454e49),
  (81, 0x307831463837090961092320475245454b20534d414c4c204c455454455220414c504841205749544820444153494120414e44205045524953504f4d454e4920414e442059504f47454752414d4d454e49),
  (68, 0x307831463838090941092320475245454b204341504954414c204c455454455220414c5048412057495448205053494c4920414e442050524f5347454752414d4d454e49),
  (68, 0x307831463839090941092320475245454b204341504954414c204c455454455220414c504841205749544820444153494120414e442050524f5347454752414d4d454e49),
  (78, 0x307831463841090941092320475245454b204341504954414c204c455454455220414c5048412057495448205053494c4920414e4420564152494120414e442050524f5347454752414d4d454e49),
  (78, 0x307831463842090941092320475245454b204341504954414c204c455454455220414c504841205749544820444153494120414e4420564152494120414e442050524f5347454752414d4d454e49),
  (77, 0x307831463843090941092320475245454b204341504954414c204c455454455220414c5048412057495448205053494c4920414e44204f58494120414e442050524f5347454752414d4d454e49),
  (77, 0x307831463844090941092320475245454b204341504954414c204c455454455220414c504841205749544820444153494120414e44204f58494120414e442050524f5347454752414d4d454e49),
  (84, 0x307831463845090941092320475245454b204341504954414c204c455454455220414c5048412057495448205053494c4920414e44205045524953504f4d454e4920414e442050524f5347454752414d4d454e49),
  (84, 0x307831463846090941092320475245454b204341504954414c204c455454455220414c504841205749544820444153494120414e44205045524953504f4d454e4920414e442050524f5347454752414d4d454e49),
  (0, 0x0),
  (63, 0x307831463930090965092320475245454b20534d414c4c204c4554544552204554412057495448205053494c4920414e442059504f47454752414d4d454e49),
  (63, 0x307831463931090965092320475245454b20534d414c4c204c455454455220455441205749544820444153494120414e442059504f47454752414d4d454e49),
  (73, 0x307831463932090965092320475245454b20534d414c4c204c4554544552204554412057495448205053494c4920414e4420564152494120414e442059504f47454752414d4d454e49),
  (73, 0x307831463933090965092320475245454b20534d414c4c204c455454455220455441205749544820444153494120414e4420564152494120414e442059504f47454752414d4d454e49),
  (72, 0x307831463934090965092320475245454b20534d414c4c204c4554544552204554412057495448205053494c4920414e44204f58494120414e442059504f47454752414d4d454e49),
  (72, 0x307831463935090965092320475245454b20534d414c4c204c455454455220455441205749544820444153494120414e44204f58494120414e442059504f47454752414d4d454e49),
  (79, 0x307831463936090965092320475245454b20534d414c4c204c4554544552204554412057495448205053494c4920414e44205045524953504f4d454e4920414e442059504f47454752414d4d454e49),
  (79, 0x307831463937090965092320475245454b20534d414c4c204c455454455220455441205749544820444153494120414e44205045524953504f4d454e4920414e442059504f47454752414d4d454e49),
  (66, 0x307831463938090945092320475245454b204341504954414c204c4554544552204554412057495448205053494c4920414e442050524f5347454752414d4d454e49),
  (66, 0x307831463939090945092320475245454b204341504954414c204c455454455220455441205749544820444153494120414e442050524f5347454752414d4d454e49),
  (76, 0x307831463941090945092320475245454b204341504954414c204c4554544552204554412057495448205053494c4920414e4420564152494120414e442050524f5347454752414d4d454e49),
  (76, 0x307831463942090945092320475245454b204341504954414c204c455454455220455441205749544820444153494120414e4420564152494120414e442050524f5347454752414d4d454e49),
  (75, 0x307831463943090945092320475245454b204341504954414c204c4554544552204554412057495448205053494c4920414e44204f58494120414e442050524f5347454752414d4d454e49),
  (75, 0x307831463944090945092320475245454b204341504954414c204c455454455220455441205749544820444153494120414e44204f58494120414e442050524f5347454752414d4d454e49),
  (82, 0x307831463945090945092320475245454b204341504954414c204c4554544552204554412057495448205053494c4920414e44205045524953504f4d454e4920414e442050524f5347454752414d4d454e49),
  (82, 0x307831463946090945092320475245454b204341504954414c204c455454455220455441205749544820444153494120414e44205045524953504f4d454e4920414e442050524f5347454752414d4d454e49),
  (0, 0x0),
  (65, 0x30783146413009096f092320475245454b20534d414c4c204c4554544552204f4d4547412057495448205053494c4920414e442059504f47454752414d4d454e49),
  (65, 0x30783146413109096f092320475245454b20534d414c4c204c4554544552204f4d454741205749544820444153494120414e442059504f47454752414d4d454e49),
  (75, 0x30783146413209096f092320475245454b20534d414c4c204c4554544552204f4d4547412057495448205053494c4920414e4420564152494120414e442059504f47454752414d4d454e49),
  (75, 0x30783146413309096f092320475245454b20534d414c4c204c4554544552204f4d454741205749544820444153494120414e4420564152494120414e442059504f47454752414d4d454e49),
  (74, 0x30783146413409096f092320475245454b20534d414c4c204c4554544552204f4d4547412057495448205053494c4920414e44204f58494120414e442059504f47454752414d4d454e49),
  (74, 0x30783146413509096f092320475245454b20534d414c4c204c4554544552204f4d454741205749544820444153494120414e44204f58494120414e442059504f47454752414d4d454e49),
  (81, 0x30783146413609096f092320475245454b20534d414c4c204c4554544552204f4d4547412057495448205053494c4920414e44205045524953504f4d454e4920414e442059504f47454752414d4d454e49),
  (81, 0x30783146413709096f092320475245454b20534d414c4c204c4554544552204f4d454741205749544820444153494120414e44205045524953504f4d454e4920414e442059504f47454752414d4d454e49),
  (68, 0x30783146413809094f092320475245454b204341504954414c204c4554544552204f4d4547412057495448205053494c4920414e442050524f5347454752414d4d454e49),
  (68, 0x30783146413909094f092320475245454b204341504954414c204c4554544552204f4d454741205749544820444153494120414e442050524f5347454752414d4d454e49),
  (78, 0x30783146414109094f092320475245454b204341504954414c204c4554544552204f4d4547412057495448205053494c4920414e4420564152494120414e442050524f5347454752414d4d454e49),
  (78, 0x30783146414209094f092320475245454b204341504954414c204c4554544552204f4d454741205749544820444153494120414e4420564152494120414e442050524f5347454752414d4d454e49),
  (77, 0x30783146414309094f092320475245454b204341504954414c204c4554544552204f4d4547412057495448205053494c4920414e44204f58494120414e442050524f5347454752414d4d454e49),
  (77, 0x30783146414409094f092320475245454b204341504954414c204c4554544552204f4d454741205749544820444153494120414e44204f58494120414e442050524f5347454752414d4d454e49),
  (84, 0x30783146414509094f092320475245454b204341504954414c204c4554544552204f4d4547412057495448205053494c4920414e44205045524953504f4d454e4920414e442050524f5347454752414d4d454e49),
  (84, 0x30783146414609094f092320475245454b204341504954414c204c4554544552204f4d454741205749544820444153494120414e44205045524953504f4d454e4920414e442050524f5347454752414d4d454e49),
  (0, 0x0),
  (48, 0x307831464230090961092320475245454b20534d414c4c204c455454455220414c504841205749544820565241434859),
  (48, 0x307831464231090961092320475245454b20534d414c4c204c455454455220414c5048412057495448204d4143524f4e),
  (65, 0x307831464232090961092320475245454b20534d414c4c204c455454455220414c504841205749544820564152494120414e442059504f47454752414d4d454e49),
  (55, 0x307831464233090961092320475245454b20534d414c4c204c455454455220414c50484120574954482059504f47454752414d4d454e49),
  (64, 0x307831464234090961092320475245454b20534d414c4c204c455454455220414c5048412057495448204f58494120414e442059504f47454752414d4d454e49),
  (53, 0x307831464236090961092320475245454b20534d414c4c204c455454455220414c5048412057495448205045524953504f4d454e49),
  (71, 0x307831464237090961092320475245454b20534d414c4c204c455454455220414c5048412057495448205045524953504f4d454e4920414e442059504f47454752414d4d454e49),
  (50, 0x307831464238090941092320475245454b204341504954414c204c455454455220414c504841205749544820565241434859),
  (50, 0x307831464239090941092320475245454b204341504954414c204c455454455220414c5048412057495448204d4143524f4e),
  (49, 0x307831464241090941092320475245454b204341504954414c204c455454455220414c5048412057495448205641524941),
  (48, 0x307831464242090941092320475245454b204341504954414c204c455454455220414c5048412057495448204f584941),
  (58, 0x307831464243090941092320475245454b204341504954414c204c455454455220414c50484120574954482050524f5347454752414d4d454e49),
  (27, 0x3078314642440909222722092320475245454b204b4f524f4e4953),
  (32, 0x307831464245090969092320475245454b2050524f5347454752414d4d454e49),
  (25, 0x3078314642460909222722092320475245454b205053494c49),
  (0, 0x0),
  (29, 0x30783146433009097e092320475245454b205045524953504f4d454e49),
  (46, 0x307831464331090927227e27092320475245454b204449414c5954494b4120414e44205045524953504f4d454e49),
  (63, 0x307831464332090965092320475245454b20534d414c4c204c455454455220455441205749544820564152494120414e442059504f47454752414d4d454e49),
  (53, 0x307831464333090965092320475245454b20534d414c4c204c45545445522045544120574954482059504f47454752414d4d454e49),
  (62, 0x307831464334090965092320475245454b20534d414c4c204c4554544552204554412057495448204f58494120414e442059504f47454752414d4d454e49),
  (51, 0x307831464336090965092320475245454b20534d414c4c204c4554544552204554412057495448205045524953504f4d454e49),
  (69, 0x307831464337090965092320475245454b20534d414c4c204c4554544552204554412057495448205045524953504f4d454e4920414e442059504f47454752414d4d454e49),
  (51, 0x307831464338090945092320475245454b204341504954414c204c455454455220455053494c4f4e2057495448205641524941),
  (50, 0x307831464339090945092320475245454b204341504954414c204c455454455220455053494c4f4e2057495448204f584941),
  (47, 0x307831464341090945092320475245454b204341504954414c204c4554544552204554412057495448205641524941),
  (46, 0x307831464342090945092320475245454b204341504954414c204c4554544552204554412057495448204f584941),
  (56, 0x307831464343090945092320475245454b204341504954414c204c45545445522045544120574954482050524f5347454752414d4d454e49),
  (36, 0x307831464344090922276022092320475245454b205053494c4920414e44205641524941),
  (35, 0x307831464345090922272722092320475245454b205053494c4920414e44204f584941),
  (42, 0x307831464346090922277e22092320475245454b205053494c4920414e44205045524953504f4d454e49),
  (0, 0x0),
  (47, 0x307831464430090969092320475245454b20534d414c4c204c455454455220494f5441205749544820565241434859),
  (47, 0x307831464431090969092320475245454b20534d414c4c204c455454455220494f54412057495448204d4143524f4e),
  (60, 0x307831464432090969092320475245454b20534d414c4c204c455454455220494f54412057495448204449414c5954494b4120414e44205641524941),
  (59, 0x307831464433090969092320475245454b20534d414c4c204c455454455220494f54412057495448204449414c5954494b4120414e44204f584941),
  (52, 0x307831464436090969092320475245454b20534d414c4c204c455454455220494f54412057495448205045524953504f4d454e49),
  (66, 0x307831464437090969092320475245454b20534d414c4c204c455454455220494f54412057495448204449414c5954494b4120414e44205045524953504f4d454e49),
  (49, 0x307831464438090949092320475245454b204341504954414c204c455454455220494f5441205749544820565241434859),
  (49, 0x307831464439090949092320475245454b204341504954414c204c455454455220494f54412057495448204d4143524f4e),
  (48, 0x307831464441090949092320475245454b204341504954414c204c455454455220494f54412057495448205641524941),
  (47, 0x307831464442090949092320475245454b204341504954414c204c455454455220494f54412057495448204f584941)]

/-- Lines 5219-5318 of table/legacy/unidecode.tbl. -/
def legacy_unidecode_54 : List (Nat × Nat) := [
  (36, 0x307831464444090922602722092320475245454b20444153494120414e44205641524941),
  (35, 0x307831464445090922602722092320475245454b20444153494120414e44204f584941),
  (40, 0x3078314644460909607e092320475245454b20444153494120414e44205045524953504f4d454e49),
  (0, 0x0),
  (50, 0x307831464530090975092320475245454b20534d414c4c204c455454455220555053494c4f4e205749544820565241434859),
  (50, 0x307831464531090975092320475245454b20534d414c4c204c455454455220555053494c4f4e2057495448204d4143524f4e),
  (63, 0x307831464532090975092320475245454b20534d414c4c204c455454455220555053494c4f4e2057495448204449414c5954494b4120414e44205641524941),
  (62, 0x307831464533090975092320475245454b20534d414c4c204c455454455220555053494c4f4e2057495448204449414c5954494b4120414e44204f584941),
  (45, 0x307831464534090952092320475245454b20534d414c4c204c45545445522052484f2057495448205053494c49),
  (45, 0x307831464535090952092320475245454b20534d414c4c204c45545445522052484f2057495448204441534941),
  (55, 0x307831464536090975092320475245454b20534d414c4c204c455454455220555053494c4f4e2057495448205045524953504f4d454e49),
  (69, 0x307831464537090975092320475245454b20534d414c4c204c455454455220555053494c4f4e2057495448204449414c5954494b4120414e44205045524953504f4d454e49),
  (52, 0x307831464538090955092320475245454b204341504954414c204c455454455220555053494c4f4e205749544820565241434859),
  (52, 0x307831464539090955092320475245454b204341504954414c204c455454455220555053494c4f4e2057495448204d4143524f4e),
  (51, 0x307831464541090955092320475245454b204341504954414c204c455454455220555053494c4f4e2057495448205641524941),
  (50, 0x307831464542090955092320475245454b204341504954414c204c455454455220555053494c4f4e2057495448204f584941),
  (47, 0x307831464543090952092320475245454b204341504954414c204c45545445522052484f2057495448204441534941),
  (40, 0x307831464544090927226027092320475245454b204449414c5954494b4120414e44205641524941),
  (39, 0x307831464545090922222722092320475245454b204449414c5954494b4120414e44204f584941),
  (23, 0x307831464546090960092320475245454b205641524941),
  (65, 0x30783146463209096f092320475245454b20534d414c4c204c4554544552204f4d454741205749544820564152494120414e442059504f47454752414d4d454e49),
  (55, 0x30783146463309096f092320475245454b20534d414c4c204c4554544552204f4d45474120574954482059504f47454752414d4d454e49),
  (64, 0x30783146463409096f092320475245454b20534d414c4c204c4554544552204f4d4547412057495448204f58494120414e442059504f47454752414d4d454e49),
  (53, 0x30783146463609096f092320475245454b20534d414c4c204c4554544552204f4d4547412057495448205045524953504f4d454e49),
  (71, 0x30783146463709096f092320475245454b20534d414c4c204c4554544552204f4d4547412057495448205045524953504f4d454e4920414e442059504f47454752414d4d454e49),
  (51, 0x30783146463809094f092320475245454b204341504954414c204c4554544552204f4d4943524f4e2057495448205641524941),
  (50, 0x30783146463909094f092320475245454b204341504954414c204c4554544552204f4d4943524f4e2057495448204f584941),
  (49, 0x30783146464109094f092320475245454b204341504954414c204c4554544552204f4d4547412057495448205641524941),
  (48, 0x30783146464209094f092320475245454b204341504954414c204c4554544552204f4d4547412057495448204f584941),
  (58, 0x30783146464309094f092320475245454b204341504954414c204c4554544552204f4d45474120574954482050524f5347454752414d4d454e49),
  (24, 0x3078314646440909222722092320475245454b204f584941),
  (23, 0x307831464645090960092320475245454b204441534941),
  (0, 0x0),
  (1, 0x23),
  (29, 0x2320436861726163746572732030783230303020746f20307832304646),
  (1, 0x23),
  (0, 0x0),
  (21, 0x3078323030300909222022092320454e2051554144),
  (21, 0x3078323030310909222022092320454d2051554144),
  (22, 0x3078323030320909222022092320454e205350414345),
  (22, 0x3078323030330909222022092320454d205350414345),
  (32, 0x307832303034090922202209232054485245452d5045522d454d205350414345),
  (31, 0x3078323030350909222022092320464f55522d5045522d454d205350414345),
  (30, 0x30783230303609092220220923205349582d5045522d454d205350414345),
  (26, 0x3078323030370909222022092320464947555245205350414345),
  (31, 0x307832303038090922202209232050554e4354554154494f4e205350414345),
  (24, 0x30783230303909092220220923205448494e205350414345),
  (24, 0x307832303041090922202209232048414952205350414345),
  (30, 0x30783230304209092220220923205a45524f205749445448205350414345),
  (0, 0x0),
  (18, 0x30783230313009092d09232048595048454e),
  (31, 0x30783230313109092d0923204e4f4e2d425245414b494e472048595048454e),
  (23, 0x30783230313209092d0923204649475552452044415348),
  (19, 0x30783230313309092d092320454e2044415348),
  (20, 0x30783230313409092d2d092320454d2044415348),
  (27, 0x30783230313509092d2d092320484f52495a4f4e54414c20424152),
  (33, 0x30783230313609097c7c092320444f55424c4520564552544943414c204c494e45),
  (27, 0x30783230313709095f092320444f55424c45204c4f57204c494e45),
  (40, 0x30783230313809092227220923204c4546542053494e474c452051554f544154494f4e204d41524b),
  (41, 0x307832303139090922272209232052494748542053494e474c452051554f544154494f4e204d41524b),
  (39, 0x30783230314109092c09232053494e474c45204c4f572d392051554f544154494f4e204d41524b),
  (51, 0x307832303142090922272209232053494e474c4520484947482d52455645525345442d392051554f544154494f4e204d41524b),
  (40, 0x30783230314309092722270923204c45465420444f55424c452051554f544154494f4e204d41524b),
  (41, 0x3078323031440909272227092320524947485420444f55424c452051554f544154494f4e204d41524b),
  (40, 0x30783230314509092c2c092320444f55424c45204c4f572d392051554f544154494f4e204d41524b),
  (51, 0x3078323031460909272227092320444f55424c4520484947482d52455645525345442d392051554f544154494f4e204d41524b),
  (0, 0x0),
  (18, 0x30783230323009092b092320444147474552),
  (26, 0x30783230323109092b2b092320444f55424c4520444147474552),
  (18, 0x30783230323209092a09232042554c4c4554),
  (30, 0x30783230323309092a3e092320545249414e47554c41522042554c4c4554),
  (26, 0x30783230323409092e0923204f4e4520444f54204c4541444552),
  (27, 0x30783230323509092e2e09232054574f20444f54204c4541444552),
  (33, 0x30783230323609092e2e2e092320484f52495a4f4e54414c20454c4c4950534953),
  (29, 0x30783230323709092e09232048595048454e4154494f4e20504f494e54),
  (28, 0x30783230323809092220220923204c494e4520534550415241544f52),
  (33, 0x307832303239090922202209232050415241475241504820534550415241544f52),
  (35, 0x30783230324609092220220923204e4152524f57204e4f2d425245414b205350414345),
  (0, 0x0),
  (27, 0x30783230333009092530092320504552204d494c4c45205349474e),
  (35, 0x30783230333109092530300923205045522054454e2054484f5553414e44205349474e),
  (19, 0x30783230333209092227220923205052494d45),
  (27, 0x307832303333090922272722092320444f55424c45205052494d45),
  (28, 0x30783230333409092227272722092320545249504c45205052494d45),
  (26, 0x3078323033350909600923205245564552534544205052494d45),
  (34, 0x30783230333609096060092320524556455253454420444f55424c45205052494d45),
  (35, 0x3078323033370909606060092320524556455253454420545249504c45205052494d45),
  (17, 0x30783230333809095e0923204341524554),
  (53, 0x30783230333909093c09232053494e474c45204c4546542d504f494e54494e4720414e474c452051554f544154494f4e204d41524b),
  (54, 0x30783230334109093e09232053494e474c452052494748542d504f494e54494e4720414e474c452051554f544154494f4e204d41524b),
  (26, 0x30783230334209092a0923205245464552454e4345204d41524b),
  (36, 0x30783230334309092121092320444f55424c45204558434c414d4154494f4e204d41524b),
  (24, 0x3078323033440909213f092320494e544552524f42414e47),
  (20, 0x30783230334509092d0923204f5645524c494e45),
  (20, 0x30783230334609095f092320554e444552544945),
  (0, 0x0),
  (25, 0x30783230343009092d09232043484152414354455220544945),
  (33, 0x30783230343109095e092320434152455420494e53455254494f4e20504f494e54),
  (22, 0x30783230343209092a2a2a092320415354455249534d),
  (26, 0x30783230343309092d2d09232048595048454e2042554c4c4554)]

/-- Lines 5319-5418 of table/legacy/unidecode.tbl. -/
def legacy_unidecode_55 : List (Nat × Nat) := [
  (26, 0x30783230343409092f0923204652414354494f4e20534c415348),
  (43, 0x30783230343509092d5b0923204c4546542053515541524520425241434b45542057495448205155494c4c),
  (44, 0x30783230343609095d2d09232052494748542053515541524520425241434b45542057495448205155494c4c),
  (34, 0x30783230343709095b3f5d092320444f55424c45205155455354494f4e204d41524b),
  (38, 0x30783230343809093f210923205155455354494f4e204558434c414d4154494f4e204d41524b),
  (38, 0x3078323034390909213f0923204558434c414d4154494f4e205155455354494f4e204d41524b),
  (28, 0x3078323034410909370923205449524f4e49414e205349474e204554),
  (34, 0x3078323034420909505009232052455645525345442050494c43524f57205349474e),
  (35, 0x3078323034430909285d092320424c41434b204c45465457415244532042554c4c4554),
  (36, 0x30783230344409095b29092320424c41434b20524947485457415244532042554c4c4554),
  (0, 0x0),
  (28, 0x3078323037300909300923205355504552534352495054205a45524f),
  (28, 0x307832303734090934092320535550455253435249505420464f5552),
  (28, 0x30783230373509093509232053555045525343524950542046495645),
  (27, 0x307832303736090936092320535550455253435249505420534958),
  (29, 0x307832303737090937092320535550455253435249505420534556454e),
  (29, 0x3078323037380909380923205355504552534352495054204549474854),
  (28, 0x3078323037390909390923205355504552534352495054204e494e45),
  (33, 0x30783230374109092b092320535550455253435249505420504c5553205349474e),
  (29, 0x30783230374209092d0923205355504552534352495054204d494e5553),
  (35, 0x30783230374309093d092320535550455253435249505420455155414c53205349474e),
  (40, 0x3078323037440909280923205355504552534352495054204c45465420504152454e544845534953),
  (41, 0x307832303745090929092320535550455253435249505420524947485420504152454e544845534953),
  (44, 0x30783230374609096e0923205355504552534352495054204c4154494e20534d414c4c204c4554544552204e),
  (0, 0x0),
  (26, 0x307832303830090930092320535542534352495054205a45524f),
  (25, 0x307832303831090931092320535542534352495054204f4e45),
  (25, 0x3078323038320909320923205355425343524950542054574f),
  (27, 0x307832303833090933092320535542534352495054205448524545),
  (26, 0x30783230383409093409232053554253435249505420464f5552),
  (26, 0x3078323038350909350923205355425343524950542046495645),
  (25, 0x30783230383609093609232053554253435249505420534958),
  (27, 0x30783230383709093709232053554253435249505420534556454e),
  (27, 0x307832303838090938092320535542534352495054204549474854),
  (26, 0x307832303839090939092320535542534352495054204e494e45),
  (31, 0x30783230384109092b09232053554253435249505420504c5553205349474e),
  (27, 0x30783230384209092d092320535542534352495054204d494e5553),
  (33, 0x30783230384309093d09232053554253435249505420455155414c53205349474e),
  (38, 0x307832303844090928092320535542534352495054204c45465420504152454e544845534953),
  (39, 0x30783230384509092909232053554253435249505420524947485420504152454e544845534953),
  (0, 0x0),
  (32, 0x30783230413009094543550923204555524f2d43555252454e4359205349474e),
  (23, 0x3078323041310909434c092320434f4c4f4e205349474e),
  (26, 0x307832304132090943720923204352555a4549524f205349474e),
  (30, 0x307832304133090946460923204652454e4348204652414e43205349474e),
  (21, 0x30783230413409094c0923204c495241205349474e),
  (23, 0x30783230413509096d696c0923204d494c4c205349474e),
  (22, 0x30783230413609094e0923204e41495241205349474e),
  (25, 0x3078323041370909507473092320504553455441205349474e),
  (23, 0x307832304138090952730923205255504545205349474e),
  (20, 0x307832304139090957092320574f4e205349474e),
  (28, 0x30783230414109094e530923204e45572053484551454c205349474e),
  (21, 0x307832304142090944092320444f4e47205349474e),
  (23, 0x30783230414309094555520923204555524f205349474e),
  (20, 0x30783230414409094b0923204b4950205349474e),
  (23, 0x30783230414509095409232054554752494b205349474e),
  (25, 0x3078323041460909447209232044524143484d41205349474e),
  (0, 0x0),
  (1, 0x23),
  (29, 0x2320436861726163746572732030783231303020746f20307832314646),
  (1, 0x23),
  (0, 0x0),
  (28, 0x3078323132320909746d0923205452414445204d41524b205349474e),
  (0, 0x0),
  (41, 0x307832313533090920312f332009232056554c474152204652414354494f4e204f4e45205448495244),
  (42, 0x307832313534090920322f332009232056554c474152204652414354494f4e2054574f20544849524453),
  (41, 0x307832313535090920312f352009232056554c474152204652414354494f4e204f4e45204649465448),
  (42, 0x307832313536090920322f352009232056554c474152204652414354494f4e2054574f20464946544853),
  (44, 0x307832313537090920332f352009232056554c474152204652414354494f4e20544852454520464946544853),
  (43, 0x307832313538090920342f352009232056554c474152204652414354494f4e20464f555220464946544853),
  (41, 0x307832313539090920312f362009232056554c474152204652414354494f4e204f4e45205349585448),
  (43, 0x307832313541090920352f362009232056554c474152204652414354494f4e204649564520534958544853),
  (42, 0x307832313542090920312f382009232056554c474152204652414354494f4e204f4e4520454947485448),
  (45, 0x307832313543090920332f382009232056554c474152204652414354494f4e2054485245452045494748544853),
  (44, 0x307832313544090920352f382009232056554c474152204652414354494f4e20464956452045494748544853),
  (45, 0x307832313545090920372f382009232056554c474152204652414354494f4e20534556454e2045494748544853),
  (36, 0x307832313546090920312f0923204652414354494f4e204e554d455241544f52204f4e45),
  (0, 0x0),
  (29, 0x307832313630090949092320524f4d414e204e554d4552414c204f4e45),
  (30, 0x30783231363109094949092320524f4d414e204e554d4552414c2054574f),
  (33, 0x3078323136320909494949092320524f4d414e204e554d4552414c205448524545),
  (31, 0x30783231363309094956092320524f4d414e204e554d4552414c20464f5552),
  (30, 0x307832313634090956092320524f4d414e204e554d4552414c2046495645),
  (30, 0x30783231363509095649092320524f4d414e204e554d4552414c20534958),
  (33, 0x3078323136360909564949092320524f4d414e204e554d4552414c20534556454e),
  (34, 0x307832313637090956494949092320524f4d414e204e554d4552414c204549474854),
  (31, 0x30783231363809094958092320524f4d414e204e554d4552414c204e494e45),
  (29, 0x307832313639090958092320524f4d414e204e554d4552414c2054454e),
  (33, 0x30783231364109095849092320524f4d414e204e554d4552414c20454c4556454e),
  (34, 0x3078323136420909584949092320524f4d414e204e554d4552414c205457454c5645),
  (31, 0x30783231364309094c092320524f4d414e204e554d4552414c204649465459),
  (37, 0x307832313644090943092320524f4d414e204e554d4552414c204f4e452048554e44524544),
  (38, 0x307832313645090944092320524f4d414e204e554d4552414c20464956452048554e44524544),
  (38, 0x30783231364609094d092320524f4d414e204e554d4552414c204f4e452054484f5553414e44),
  (0, 0x0),
  (35, 0x307832313730090969092320534d414c4c20524f4d414e204e554d4552414c204f4e45),
  (36, 0x30783231373109096969092320534d414c4c20524f4d414e204e554d4552414c2054574f),
  (39, 0x3078323137320909696969092320534d414c4c20524f4d414e204e554d4552414c205448524545),
  (37, 0x30783231373309096976092320534d414c4c20524f4d414e204e554d4552414c20464f5552),
  (36, 0x307832313734090976092320534d414c4c20524f4d414e204e554d4552414c2046495645)]

/-- Lines 5419-5518 of table/legacy/unidecode.tbl. -/
def legacy_unidecode_56 : List (Nat × Nat) := [
  (36, 0x30783231373509097669092320534d414c4c20524f4d414e204e554d4552414c20534958),
  (39, 0x3078323137360909766969092320534d414c4c20524f4d414e204e554d4552414c20534556454e),
  (40, 0x307832313737090976696969092320534d414c4c20524f4d414e204e554d4552414c204549474854),
  (37, 0x30783231373809096978092320534d414c4c20524f4d414e204e554d4552414c204e494e45),
  (35, 0x307832313739090978092320534d414c4c20524f4d414e204e554d4552414c2054454e),
  (39, 0x30783231374109097869092320534d414c4c20524f4d414e204e554d4552414c20454c4556454e),
  (40, 0x3078323137420909786969092320534d414c4c20524f4d414e204e554d4552414c205457454c5645),
  (37, 0x30783231374309096c092320534d414c4c20524f4d414e204e554d4552414c204649465459),
  (43, 0x307832313744090963092320534d414c4c20524f4d414e204e554d4552414c204f4e452048554e44524544),
  (44, 0x307832313745090964092320534d414c4c20524f4d414e204e554d4552414c20464956452048554e44524544),
  (44, 0x30783231374609096d092320534d414c4c20524f4d414e204e554d4552414c204f4e452054484f5553414e44),
  (0, 0x0),
  (43, 0x30783231383009092844092320524f4d414e204e554d4552414c204f4e452054484f5553414e4420432044),
  (40, 0x30783231383109094429092320524f4d414e204e554d4552414c20464956452054484f5553414e44),
  (42, 0x307832313832090928287c2929092320524f4d414e204e554d4552414c2054454e2054484f5553414e44),
  (46, 0x307832313833090929092320524f4d414e204e554d4552414c205245564552534544204f4e452048554e44524544),
  (0, 0x0),
  (27, 0x30783231393009092d0923204c4546545741524453204152524f57),
  (25, 0x30783231393109097c09232055505741524453204152524f57),
  (28, 0x30783231393209092d09232052494748545741524453204152524f57),
  (27, 0x30783231393309097c092320444f574e5741524453204152524f57),
  (28, 0x30783231393409092d0923204c454654205249474854204152524f57),
  (25, 0x30783231393509097c092320555020444f574e204152524f57),
  (28, 0x30783231393609095c0923204e4f5254482057455354204152524f57),
  (28, 0x30783231393709092f0923204e4f5254482045415354204152524f57),
  (28, 0x30783231393809095c092320534f5554482045415354204152524f57),
  (28, 0x30783231393909092f092320534f5554482057455354204152524f57),
  (39, 0x30783231394109092d0923204c4546545741524453204152524f572057495448205354524f4b45),
  (40, 0x30783231394209092d09232052494748545741524453204152524f572057495448205354524f4b45),
  (32, 0x30783231394309097e0923204c45465457415244532057415645204152524f57),
  (33, 0x30783231394409097e092320524947485457415244532057415645204152524f57),
  (38, 0x30783231394509092d0923204c45465457415244532054574f20484541444544204152524f57),
  (36, 0x30783231394609097c092320555057415244532054574f20484541444544204152524f57),
  (0, 0x0),
  (39, 0x30783231413009092d092320524947485457415244532054574f20484541444544204152524f57),
  (38, 0x30783231413109097c092320444f574e57415244532054574f20484541444544204152524f57),
  (37, 0x30783231413209092d0923204c4546545741524453204152524f572057495448205441494c),
  (38, 0x30783231413309092d09232052494748545741524453204152524f572057495448205441494c),
  (36, 0x30783231413409092d0923204c4546545741524453204152524f572046524f4d20424152),
  (34, 0x30783231413509097c09232055505741524453204152524f572046524f4d20424152),
  (37, 0x30783231413609092d09232052494748545741524453204152524f572046524f4d20424152),
  (36, 0x30783231413709097c092320444f574e5741524453204152524f572046524f4d20424152),
  (35, 0x30783231413809097c092320555020444f574e204152524f5720574954482042415345),
  (37, 0x30783231413909092d0923204c4546545741524453204152524f57205749544820484f4f4b),
  (38, 0x30783231414109092d09232052494748545741524453204152524f57205749544820484f4f4b),
  (37, 0x30783231414209092d0923204c4546545741524453204152524f572057495448204c4f4f50),
  (38, 0x30783231414309092d09232052494748545741524453204152524f572057495448204c4f4f50),
  (33, 0x30783231414409092d0923204c4546542052494748542057415645204152524f57),
  (40, 0x30783231414509092d0923204c454654205249474854204152524f572057495448205354524f4b45),
  (34, 0x30783231414609097c092320444f574e5741524453205a49475a4147204152524f57),
  (0, 0x0),
  (44, 0x30783231423009097c09232055505741524453204152524f57205749544820544950204c4546545741524453),
  (45, 0x30783231423109097c09232055505741524453204152524f572057495448205449502052494748545741524453),
  (46, 0x30783231423209097c092320444f574e5741524453204152524f57205749544820544950204c4546545741524453),
  (47, 0x30783231423309097c092320444f574e5741524453204152524f572057495448205449502052494748545741524453),
  (50, 0x30783231423409097c09232052494748545741524453204152524f57205749544820434f524e455220444f574e5741524453),
  (49, 0x30783231423509097c092320444f574e5741524453204152524f57205749544820434f524e4552204c4546545741524453),
  (46, 0x30783231423609095e092320414e5449434c4f434b5749534520544f502053454d49434952434c45204152524f57),
  (42, 0x307832314237090956092320434c4f434b5749534520544f502053454d49434952434c45204152524f57),
  (40, 0x30783231423809095c0923204e4f5254482057455354204152524f5720544f204c4f4e4720424152),
  (63, 0x30783231423909093d0923204c4546545741524453204152524f5720544f20424152204f5645522052494748545741524453204152524f5720544f20424152),
  (43, 0x307832314241090956092320414e5449434c4f434b57495345204f50454e20434952434c45204152524f57),
  (39, 0x30783231424209095e092320434c4f434b57495345204f50454e20434952434c45204152524f57),
  (47, 0x30783231424309092d0923204c454654574152445320484152504f4f4e205749544820424152422055505741524453),
  (49, 0x30783231424409092d0923204c454654574152445320484152504f4f4e2057495448204241524220444f574e5741524453),
  (48, 0x30783231424509097c0923205550574152445320484152504f4f4e205749544820424152422052494748545741524453),
  (47, 0x30783231424609097c0923205550574152445320484152504f4f4e20574954482042415242204c4546545741524453),
  (0, 0x0),
  (48, 0x30783231433009092d0923205249474854574152445320484152504f4f4e205749544820424152422055505741524453),
  (50, 0x30783231433109092d0923205249474854574152445320484152504f4f4e2057495448204241524220444f574e5741524453),
  (50, 0x30783231433209097c092320444f574e574152445320484152504f4f4e205749544820424152422052494748545741524453),
  (49, 0x30783231433309097c092320444f574e574152445320484152504f4f4e20574954482042415242204c4546545741524453),
  (49, 0x30783231433409093d09232052494748545741524453204152524f57204f564552204c4546545741524453204152524f57),
  (54, 0x30783231433509097c09232055505741524453204152524f57204c4546545741524453204f4620444f574e5741524453204152524f57),
  (49, 0x30783231433609093d0923204c4546545741524453204152524f57204f5645522052494748545741524453204152524f57),
  (35, 0x30783231433709093d0923204c454654574152445320504149524544204152524f5753),
  (33, 0x30783231433809097c0923205550574152445320504149524544204152524f5753),
  (36, 0x30783231433909093d0923205249474854574152445320504149524544204152524f5753),
  (35, 0x30783231434109097c092320444f574e574152445320504149524544204152524f5753),
  (53, 0x30783231434209093d0923204c454654574152445320484152504f4f4e204f564552205249474854574152445320484152504f4f4e),
  (53, 0x30783231434309093d0923205249474854574152445320484152504f4f4e204f564552204c454654574152445320484152504f4f4e),
  (46, 0x30783231434409093d0923204c454654574152445320444f55424c45204152524f572057495448205354524f4b45),
  (47, 0x30783231434509093d0923204c45465420524947485420444f55424c45204152524f572057495448205354524f4b45),
  (47, 0x30783231434609093d0923205249474854574152445320444f55424c45204152524f572057495448205354524f4b45),
  (0, 0x0),
  (34, 0x30783231443009093d0923204c454654574152445320444f55424c45204152524f57),
  (32, 0x30783231443109097c0923205550574152445320444f55424c45204152524f57),
  (35, 0x30783231443209093d0923205249474854574152445320444f55424c45204152524f57),
  (34, 0x30783231443309097c092320444f574e574152445320444f55424c45204152524f57),
  (35, 0x30783231443409093d0923204c45465420524947485420444f55424c45204152524f57),
  (32, 0x30783231443509097c092320555020444f574e20444f55424c45204152524f57),
  (35, 0x30783231443609095c0923204e4f525448205745535420444f55424c45204152524f57),
  (35, 0x30783231443709092f0923204e4f525448204541535420444f55424c45204152524f57),
  (35, 0x30783231443809095c092320534f555448204541535420444f55424c45204152524f57),
  (35, 0x30783231443909092f092320534f555448205745535420444f55424c45204152524f57),
  (34, 0x30783231444109093d0923204c454654574152445320545249504c45204152524f57),
  (35, 0x30783231444209093d0923205249474854574152445320545249504c45204152524f57),
  (36, 0x30783231444309097e0923204c4546545741524453205351554947474c45204152524f57),
  (37, 0x30783231444409097e09232052494748545741524453205351554947474c45204152524f57),
  (44, 0x30783231444509097c09232055505741524453204152524f57205749544820444f55424c45205354524f4b45)]

/-- Lines 5519-5618 of table/legacy/unidecode.tbl. -/
def legacy_unidecode_57 : List (Nat × Nat) := [
  (46, 0x30783231444609097c092320444f574e5741524453204152524f57205749544820444f55424c45205354524f4b45),
  (0, 0x0),
  (34, 0x30783231453009092d0923204c454654574152445320444153484544204152524f57),
  (32, 0x30783231453109097c0923205550574152445320444153484544204152524f57),
  (35, 0x30783231453209092d0923205249474854574152445320444153484544204152524f57),
  (34, 0x30783231453309097c092320444f574e574152445320444153484544204152524f57),
  (34, 0x30783231453409092d0923204c4546545741524453204152524f5720544f20424152),
  (35, 0x30783231453509092d09232052494748545741524453204152524f5720544f20424152),
  (33, 0x30783231453609092d0923204c4546545741524453205748495445204152524f57),
  (31, 0x30783231453709097c09232055505741524453205748495445204152524f57),
  (34, 0x30783231453809092d09232052494748545741524453205748495445204152524f57),
  (33, 0x30783231453909097c092320444f574e5741524453205748495445204152524f57),
  (40, 0x30783231454109097c09232055505741524453205748495445204152524f572046524f4d20424152),
  (43, 0x30783231454209097c09232055505741524453205748495445204152524f57204f4e20504544455354414c),
  (63, 0x30783231454309097c09232055505741524453205748495445204152524f57204f4e20504544455354414c205749544820484f52495a4f4e54414c20424152),
  (61, 0x30783231454409097c09232055505741524453205748495445204152524f57204f4e20504544455354414c205749544820564552544943414c20424152),
  (38, 0x30783231454509097c0923205550574152445320574849544520444f55424c45204152524f57),
  (50, 0x30783231454609097c0923205550574152445320574849544520444f55424c45204152524f57204f4e20504544455354414c),
  (0, 0x0),
  (44, 0x30783231463009092d09232052494748545741524453205748495445204152524f572046524f4d2057414c4c),
  (38, 0x30783231463109095c0923204e4f5254482057455354204152524f5720544f20434f524e4552),
  (38, 0x30783231463209095c092320534f5554482045415354204152524f5720544f20434f524e4552),
  (31, 0x30783231463309097c092320555020444f574e205748495445204152524f57),
  (0, 0x0),
  (1, 0x23),
  (29, 0x2320436861726163746572732030783232303020746f20307832324646),
  (1, 0x23),
  (0, 0x0),
  (31, 0x30783232354609093f0923205155455354494f4e454420455155414c20544f),
  (0, 0x0),
  (1, 0x23),
  (29, 0x2320436861726163746572732030783233303020746f20307832334646),
  (1, 0x23),
  (0, 0x0),
  (47, 0x30783233373009093f09232041504c2046554e4354494f4e414c2053594d424f4c2051554144205155455354494f4e),
  (0, 0x0),
  (1, 0x23),
  (29, 0x2320436861726163746572732030783234303020746f20307832344646),
  (1, 0x23),
  (0, 0x0),
  (1, 0x23),
  (29, 0x2320436861726163746572732030783235303020746f20307832354646),
  (1, 0x23),
  (0, 0x0),
  (41, 0x30783235303009092d092320424f582044524157494e4753204c4947485420484f52495a4f4e54414c),
  (41, 0x30783235303109092d092320424f582044524157494e475320484541565920484f52495a4f4e54414c),
  (39, 0x30783235303209097c092320424f582044524157494e4753204c4947485420564552544943414c),
  (39, 0x30783235303309097c092320424f582044524157494e475320484541565920564552544943414c),
  (53, 0x30783235303409092d092320424f582044524157494e4753204c4947485420545249504c45204441534820484f52495a4f4e54414c),
  (53, 0x30783235303509092d092320424f582044524157494e475320484541565920545249504c45204441534820484f52495a4f4e54414c),
  (51, 0x30783235303609097c092320424f582044524157494e4753204c4947485420545249504c45204441534820564552544943414c),
  (51, 0x30783235303709097c092320424f582044524157494e475320484541565920545249504c45204441534820564552544943414c),
  (56, 0x30783235303809092d092320424f582044524157494e4753204c4947485420515541445255504c45204441534820484f52495a4f4e54414c),
  (56, 0x30783235303909092d092320424f582044524157494e475320484541565920515541445255504c45204441534820484f52495a4f4e54414c),
  (54, 0x30783235304109097c092320424f582044524157494e4753204c4947485420515541445255504c45204441534820564552544943414c),
  (54, 0x30783235304209097c092320424f582044524157494e475320484541565920515541445255504c45204441534820564552544943414c),
  (45, 0x30783235304309092b092320424f582044524157494e4753204c4947485420444f574e20414e44205249474854),
  (51, 0x30783235304409092b092320424f582044524157494e475320444f574e204c4947485420414e44205249474854204845415659),
  (51, 0x30783235304509092b092320424f582044524157494e475320444f574e20484541565920414e44205249474854204c49474854),
  (45, 0x30783235304609092b092320424f582044524157494e475320484541565920444f574e20414e44205249474854),
  (0, 0x0),
  (44, 0x30783235313009092b092320424f582044524157494e4753204c4947485420444f574e20414e44204c454654),
  (50, 0x30783235313109092b092320424f582044524157494e475320444f574e204c4947485420414e44204c454654204845415659),
  (50, 0x30783235313209092b092320424f582044524157494e475320444f574e20484541565920414e44204c454654204c49474854),
  (44, 0x30783235313309092b092320424f582044524157494e475320484541565920444f574e20414e44204c454654),
  (43, 0x30783235313409092b092320424f582044524157494e4753204c4947485420555020414e44205249474854),
  (49, 0x30783235313509092b092320424f582044524157494e4753205550204c4947485420414e44205249474854204845415659),
  (49, 0x30783235313609092b092320424f582044524157494e475320555020484541565920414e44205249474854204c49474854),
  (43, 0x30783235313709092b092320424f582044524157494e475320484541565920555020414e44205249474854),
  (42, 0x30783235313809092b092320424f582044524157494e4753204c4947485420555020414e44204c454654),
  (48, 0x30783235313909092b092320424f582044524157494e4753205550204c4947485420414e44204c454654204845415659),
  (48, 0x30783235314109092b092320424f582044524157494e475320555020484541565920414e44204c454654204c49474854),
  (42, 0x30783235314209092b092320424f582044524157494e475320484541565920555020414e44204c454654),
  (49, 0x30783235314309092b092320424f582044524157494e4753204c4947485420564552544943414c20414e44205249474854),
  (55, 0x30783235314409092b092320424f582044524157494e475320564552544943414c204c4947485420414e44205249474854204845415659),
  (54, 0x30783235314509092b092320424f582044524157494e475320555020484541565920414e4420524947485420444f574e204c49474854),
  (54, 0x30783235314609092b092320424f582044524157494e475320444f574e20484541565920414e44205249474854205550204c49474854),
  (0, 0x0),
  (55, 0x30783235323009092b092320424f582044524157494e475320564552544943414c20484541565920414e44205249474854204c49474854),
  (54, 0x30783235323109092b092320424f582044524157494e475320444f574e204c4947485420414e44205249474854205550204845415659),
  (54, 0x30783235323209092b092320424f582044524157494e4753205550204c4947485420414e4420524947485420444f574e204845415659),
  (49, 0x30783235323309092b092320424f582044524157494e475320484541565920564552544943414c20414e44205249474854),
  (48, 0x30783235323409092b092320424f582044524157494e4753204c4947485420564552544943414c20414e44204c454654),
  (54, 0x30783235323509092b092320424f582044524157494e475320564552544943414c204c4947485420414e44204c454654204845415659),
  (53, 0x30783235323609092b092320424f582044524157494e475320555020484541565920414e44204c45465420444f574e204c49474854),
  (53, 0x30783235323709092b092320424f582044524157494e475320444f574e20484541565920414e44204c454654205550204c49474854),
  (54, 0x30783235323809092b092320424f582044524157494e475320564552544943414c20484541565920414e44204c454654204c49474854),
  (53, 0x30783235323909092b092320424f582044524157494e475320444f574e204c4947485420414e44204c454654205550204845415659),
  (53, 0x30783235324109092b092320424f582044524157494e4753205550204c4947485420414e44204c45465420444f574e204845415659),
  (48, 0x30783235324209092b092320424f582044524157494e475320484541565920564552544943414c20414e44204c454654),
  (50, 0x30783235324309092b092320424f582044524157494e4753204c4947485420444f574e20414e4420484f52495a4f4e54414c),
  (56, 0x30783235324409092b092320424f582044524157494e4753204c45465420484541565920414e4420524947485420444f574e204c49474854),
  (56, 0x30783235324509092b092320424f582044524157494e475320524947485420484541565920414e44204c45465420444f574e204c49474854),
  (56, 0x30783235324609092b092320424f582044524157494e475320444f574e204c4947485420414e4420484f52495a4f4e54414c204845415659),
  (0, 0x0),
  (56, 0x30783235333009092b092320424f582044524157494e475320444f574e20484541565920414e4420484f52495a4f4e54414c204c49474854),
  (56, 0x30783235333109092b092320424f582044524157494e4753205249474854204c4947485420414e44204c45465420444f574e204845415659),
  (56, 0x30783235333209092b092320424f582044524157494e4753204c454654204c4947485420414e4420524947485420444f574e204845415659),
  (50, 0x30783235333309092b092320424f582044524157494e475320484541565920444f574e20414e4420484f52495a4f4e54414c),
  (48, 0x30783235333409092b092320424f582044524157494e4753204c4947485420555020414e4420484f52495a4f4e54414c)]

/-- Lines 5619-5718 of table/legacy/unidecode.tbl. -/
def legacy_unidecode_58 : List (Nat × Nat) := [
  (54, 0x30783235333509092b092320424f582044524157494e4753204c45465420484541565920414e44205249474854205550204c49474854),
  (54, 0x30783235333609092b092320424f582044524157494e475320524947485420484541565920414e44204c454654205550204c49474854),
  (54, 0x30783235333709092b092320424f582044524157494e4753205550204c4947485420414e4420484f52495a4f4e54414c204845415659),
  (54, 0x30783235333809092b092320424f582044524157494e475320555020484541565920414e4420484f52495a4f4e54414c204c49474854),
  (54, 0x30783235333909092b092320424f582044524157494e4753205249474854204c4947485420414e44204c454654205550204845415659),
  (54, 0x30783235334109092b092320424f582044524157494e4753204c454654204c4947485420414e44205249474854205550204845415659),
  (48, 0x30783235334209092b092320424f582044524157494e475320484541565920555020414e4420484f52495a4f4e54414c),
  (54, 0x30783235334309092b092320424f582044524157494e4753204c4947485420564552544943414c20414e4420484f52495a4f4e54414c),
  (60, 0x30783235334409092b092320424f582044524157494e4753204c45465420484541565920414e4420524947485420564552544943414c204c49474854),
  (60, 0x30783235334509092b092320424f582044524157494e475320524947485420484541565920414e44204c45465420564552544943414c204c49474854),
  (60, 0x30783235334609092b092320424f582044524157494e475320564552544943414c204c4947485420414e4420484f52495a4f4e54414c204845415659),
  (0, 0x0),
  (59, 0x30783235343009092b092320424f582044524157494e475320555020484541565920414e4420444f574e20484f52495a4f4e54414c204c49474854),
  (59, 0x30783235343109092b092320424f582044524157494e475320444f574e20484541565920414e4420555020484f52495a4f4e54414c204c49474854),
  (60, 0x30783235343209092b092320424f582044524157494e475320564552544943414c20484541565920414e4420484f52495a4f4e54414c204c49474854),
  (59, 0x30783235343309092b092320424f582044524157494e4753204c45465420555020484541565920414e4420524947485420444f574e204c49474854),
  (59, 0x30783235343409092b092320424f582044524157494e475320524947485420555020484541565920414e44204c45465420444f574e204c49474854),
  (59, 0x30783235343509092b092320424f582044524157494e4753204c45465420444f574e20484541565920414e44205249474854205550204c49474854),
  (59, 0x30783235343609092b092320424f582044524157494e475320524947485420444f574e20484541565920414e44204c454654205550204c49474854),
  (59, 0x30783235343709092b092320424f582044524157494e475320444f574e204c4947485420414e4420555020484f52495a4f4e54414c204845415659),
  (59, 0x30783235343809092b092320424f582044524157494e4753205550204c4947485420414e4420444f574e20484f52495a4f4e54414c204845415659),
  (60, 0x30783235343909092b092320424f582044524157494e4753205249474854204c4947485420414e44204c45465420564552544943414c204845415659),
  (60, 0x30783235344109092b092320424f582044524157494e4753204c454654204c4947485420414e4420524947485420564552544943414c204845415659),
  (54, 0x30783235344209092b092320424f582044524157494e475320484541565920564552544943414c20414e4420484f52495a4f4e54414c),
  (53, 0x30783235344309092d092320424f582044524157494e4753204c4947485420444f55424c45204441534820484f52495a4f4e54414c),
  (53, 0x30783235344409092d092320424f582044524157494e475320484541565920444f55424c45204441534820484f52495a4f4e54414c),
  (51, 0x30783235344509097c092320424f582044524157494e4753204c4947485420444f55424c45204441534820564552544943414c),
  (51, 0x30783235344609097c092320424f582044524157494e475320484541565920444f55424c45204441534820564552544943414c),
  (0, 0x0),
  (42, 0x30783235353009092d092320424f582044524157494e475320444f55424c4520484f52495a4f4e54414c),
  (40, 0x30783235353109097c092320424f582044524157494e475320444f55424c4520564552544943414c),
  (53, 0x30783235353209092b092320424f582044524157494e475320444f574e2053494e474c4520414e4420524947485420444f55424c45),
  (53, 0x30783235353309092b092320424f582044524157494e475320444f574e20444f55424c4520414e442052494748542053494e474c45),
  (46, 0x30783235353409092b092320424f582044524157494e475320444f55424c4520444f574e20414e44205249474854),
  (52, 0x30783235353509092b092320424f582044524157494e475320444f574e2053494e474c4520414e44204c45465420444f55424c45),
  (52, 0x30783235353609092b092320424f582044524157494e475320444f574e20444f55424c4520414e44204c4546542053494e474c45),
  (45, 0x30783235353709092b092320424f582044524157494e475320444f55424c4520444f574e20414e44204c454654),
  (51, 0x30783235353809092b092320424f582044524157494e47532055502053494e474c4520414e4420524947485420444f55424c45),
  (51, 0x30783235353909092b092320424f582044524157494e475320555020444f55424c4520414e442052494748542053494e474c45),
  (44, 0x30783235354109092b092320424f582044524157494e475320444f55424c4520555020414e44205249474854),
  (50, 0x30783235354209092b092320424f582044524157494e47532055502053494e474c4520414e44204c45465420444f55424c45),
  (50, 0x30783235354309092b092320424f582044524157494e475320555020444f55424c4520414e44204c4546542053494e474c45),
  (43, 0x30783235354409092b092320424f582044524157494e475320444f55424c4520555020414e44204c454654),
  (57, 0x30783235354509092b092320424f582044524157494e475320564552544943414c2053494e474c4520414e4420524947485420444f55424c45),
  (57, 0x30783235354609092b092320424f582044524157494e475320564552544943414c20444f55424c4520414e442052494748542053494e474c45),
  (0, 0x0),
  (50, 0x30783235363009092b092320424f582044524157494e475320444f55424c4520564552544943414c20414e44205249474854),
  (56, 0x30783235363109092b092320424f582044524157494e475320564552544943414c2053494e474c4520414e44204c45465420444f55424c45),
  (56, 0x30783235363209092b092320424f582044524157494e475320564552544943414c20444f55424c4520414e44204c4546542053494e474c45),
  (49, 0x30783235363309092b092320424f582044524157494e475320444f55424c4520564552544943414c20414e44204c454654),
  (58, 0x30783235363409092b092320424f582044524157494e475320444f574e2053494e474c4520414e4420484f52495a4f4e54414c20444f55424c45),
  (58, 0x30783235363509092b092320424f582044524157494e475320444f574e20444f55424c4520414e4420484f52495a4f4e54414c2053494e474c45),
  (51, 0x30783235363609092b092320424f582044524157494e475320444f55424c4520444f574e20414e4420484f52495a4f4e54414c),
  (56, 0x30783235363709092b092320424f582044524157494e47532055502053494e474c4520414e4420484f52495a4f4e54414c20444f55424c45),
  (56, 0x30783235363809092b092320424f582044524157494e475320555020444f55424c4520414e4420484f52495a4f4e54414c2053494e474c45),
  (49, 0x30783235363909092b092320424f582044524157494e475320444f55424c4520555020414e4420484f52495a4f4e54414c),
  (62, 0x30783235364109092b092320424f582044524157494e475320564552544943414c2053494e474c4520414e4420484f52495a4f4e54414c20444f55424c45),
  (62, 0x30783235364209092b092320424f582044524157494e475320564552544943414c20444f55424c4520414e4420484f52495a4f4e54414c2053494e474c45),
  (55, 0x30783235364309092b092320424f582044524157494e475320444f55424c4520564552544943414c20414e4420484f52495a4f4e54414c),
  (49, 0x30783235364409092b092320424f582044524157494e4753204c494748542041524320444f574e20414e44205249474854),
  (48, 0x30783235364509092b092320424f582044524157494e4753204c494748542041524320444f574e20414e44204c454654),
  (46, 0x30783235364609092b092320424f582044524157494e4753204c494748542041524320555020414e44204c454654),
  (0, 0x0),
  (47, 0x30783235373009092b092320424f582044524157494e4753204c494748542041524320555020414e44205249474854),
  (65, 0x30783235373109092f092320424f582044524157494e4753204c4947485420444941474f4e414c20555050455220524947485420544f204c4f574552204c454654),
  (65, 0x30783235373209095c092320424f582044524157494e4753204c4947485420444941474f4e414c205550504552204c45465420544f204c4f574552205249474854),
  (45, 0x307832353733090958092320424f582044524157494e4753204c4947485420444941474f4e414c2043524f5353),
  (35, 0x30783235373409092d092320424f582044524157494e4753204c49474854204c454654),
  (33, 0x30783235373509097c092320424f582044524157494e4753204c49474854205550),
  (36, 0x30783235373609092d092320424f582044524157494e4753204c49474854205249474854),
  (35, 0x30783235373709097c092320424f582044524157494e4753204c4947485420444f574e),
  (35, 0x30783235373809092d092320424f582044524157494e4753204845415659204c454654),
  (33, 0x30783235373909097c092320424f582044524157494e4753204845415659205550),
  (36, 0x30783235374109092d092320424f582044524157494e4753204845415659205249474854),
  (35, 0x30783235374209097c092320424f582044524157494e475320484541565920444f574e),
  (51, 0x30783235374309092d092320424f582044524157494e4753204c49474854204c45465420414e44204845415659205249474854),
  (48, 0x30783235374409097c092320424f582044524157494e4753204c4947485420555020414e4420484541565920444f574e),
  (51, 0x30783235374509092d092320424f582044524157494e4753204845415659204c45465420414e44204c49474854205249474854),
  (48, 0x30783235374609097c092320424f582044524157494e475320484541565920555020414e44204c4947485420444f574e),
  (0, 0x0),
  (28, 0x30783235383009092309232055505045522048414c4620424c4f434b),
  (34, 0x3078323538310909230923204c4f574552204f4e452045494748544820424c4f434b),
  (35, 0x3078323538320909230923204c4f574552204f4e45205155415254455220424c4f434b),
  (37, 0x3078323538330909230923204c4f574552205448524545204549474854485320424c4f434b),
  (28, 0x3078323538340909230923204c4f5745522048414c4620424c4f434b),
  (36, 0x3078323538350909230923204c4f5745522046495645204549474854485320424c4f434b),
  (38, 0x3078323538360909230923204c4f57455220544852454520515541525445525320424c4f434b),
  (37, 0x3078323538370909230923204c4f57455220534556454e204549474854485320424c4f434b),
  (22, 0x30783235383809092309232046554c4c20424c4f434b),
  (36, 0x3078323538390909230923204c45465420534556454e204549474854485320424c4f434b),
  (37, 0x3078323538410909230923204c45465420544852454520515541525445525320424c4f434b),
  (35, 0x3078323538420909230923204c4546542046495645204549474854485320424c4f434b),
  (27, 0x3078323538430909230923204c4546542048414c4620424c4f434b),
  (36, 0x3078323538440909230923204c454654205448524545204549474854485320424c4f434b),
  (34, 0x3078323538450909230923204c454654204f4e45205155415254455220424c4f434b),
  (33, 0x3078323538460909230923204c454654204f4e452045494748544820424c4f434b),
  (0, 0x0),
  (28, 0x30783235393009092309232052494748542048414c4620424c4f434b),
  (23, 0x3078323539310909230923204c49474854205348414445),
  (24, 0x3078323539320909230923204d454449554d205348414445)]

/-- Lines 5719-5818 of table/legacy/unidecode.tbl. -/
def legacy_unidecode_59 : List (Nat × Nat) := [
  (22, 0x3078323539330909230923204441524b205348414445),
  (34, 0x30783235393409092d0923205550504552204f4e452045494748544820424c4f434b),
  (34, 0x30783235393509097c0923205249474854204f4e452045494748544820424c4f434b),
  (0, 0x0),
  (24, 0x307832354130090923092320424c41434b20535155415245),
  (24, 0x307832354131090923092320574849544520535155415245),
  (45, 0x307832354132090923092320574849544520535155415245205749544820524f554e44454420434f524e455253),
  (54, 0x30783235413309092309232057484954452053515541524520434f4e5441494e494e4720424c41434b20534d414c4c20535155415245),
  (39, 0x307832354134090923092320535155415245205749544820484f52495a4f4e54414c2046494c4c),
  (37, 0x307832354135090923092320535155415245205749544820564552544943414c2046494c4c),
  (50, 0x3078323541360909230923205351554152452057495448204f5254484f474f4e414c2043524f535348415443482046494c4c),
  (54, 0x3078323541370909230923205351554152452057495448205550504552204c45465420544f204c4f5745522052494748542046494c4c),
  (54, 0x307832354138090923092320535155415245205749544820555050455220524947485420544f204c4f574552204c4546542046494c4c),
  (48, 0x307832354139090923092320535155415245205749544820444941474f4e414c2043524f535348415443482046494c4c),
  (30, 0x307832354141090923092320424c41434b20534d414c4c20535155415245),
  (30, 0x307832354142090923092320574849544520534d414c4c20535155415245),
  (27, 0x307832354143090923092320424c41434b2052454354414e474c45),
  (27, 0x30783235414409092309232057484954452052454354414e474c45),
  (36, 0x307832354145090923092320424c41434b20564552544943414c2052454354414e474c45),
  (36, 0x307832354146090923092320574849544520564552544943414c2052454354414e474c45),
  (0, 0x0),
  (31, 0x307832354230090923092320424c41434b20504152414c4c454c4f4752414d),
  (31, 0x307832354231090923092320574849544520504152414c4c454c4f4752414d),
  (38, 0x30783235423209095e092320424c41434b2055502d504f494e54494e4720545249414e474c45),
  (38, 0x30783235423309095e09232057484954452055502d504f494e54494e4720545249414e474c45),
  (44, 0x30783235423409095e092320424c41434b2055502d504f494e54494e4720534d414c4c20545249414e474c45),
  (44, 0x30783235423509095e09232057484954452055502d504f494e54494e4720534d414c4c20545249414e474c45),
  (41, 0x30783235423609093e092320424c41434b2052494748542d504f494e54494e4720545249414e474c45),
  (41, 0x30783235423709093e09232057484954452052494748542d504f494e54494e4720545249414e474c45),
  (47, 0x30783235423809093e092320424c41434b2052494748542d504f494e54494e4720534d414c4c20545249414e474c45),
  (47, 0x30783235423909093e09232057484954452052494748542d504f494e54494e4720534d414c4c20545249414e474c45),
  (40, 0x30783235424109093e092320424c41434b2052494748542d504f494e54494e4720504f494e544552),
  (40, 0x30783235424209093e09232057484954452052494748542d504f494e54494e4720504f494e544552),
  (40, 0x307832354243090956092320424c41434b20444f574e2d504f494e54494e4720545249414e474c45),
  (40, 0x307832354244090956092320574849544520444f574e2d504f494e54494e4720545249414e474c45),
  (46, 0x307832354245090956092320424c41434b20444f574e2d504f494e54494e4720534d414c4c20545249414e474c45),
  (46, 0x307832354246090956092320574849544520444f574e2d504f494e54494e4720534d414c4c20545249414e474c45),
  (0, 0x0),
  (40, 0x30783235433009093c092320424c41434b204c4546542d504f494e54494e4720545249414e474c45),
  (40, 0x30783235433109093c0923205748495445204c4546542d504f494e54494e4720545249414e474c45),
  (46, 0x30783235433209093c092320424c41434b204c4546542d504f494e54494e4720534d414c4c20545249414e474c45),
  (46, 0x30783235433309093c0923205748495445204c4546542d504f494e54494e4720534d414c4c20545249414e474c45),
  (39, 0x30783235433409093c092320424c41434b204c4546542d504f494e54494e4720504f494e544552),
  (39, 0x30783235433509093c0923205748495445204c4546542d504f494e54494e4720504f494e544552),
  (25, 0x30783235433609092a092320424c41434b204449414d4f4e44),
  (25, 0x30783235433709092a0923205748495445204449414d4f4e44),
  (56, 0x30783235433809092a0923205748495445204449414d4f4e4420434f4e5441494e494e4720424c41434b20534d414c4c204449414d4f4e44),
  (19, 0x30783235433909092a09232046495348455945),
  (19, 0x30783235434109092a0923204c4f5a454e4745),
  (24, 0x30783235434209092a092320574849544520434952434c45),
  (25, 0x30783235434309092a092320444f5454454420434952434c45),
  (37, 0x30783235434409092a092320434952434c45205749544820564552544943414c2046494c4c),
  (20, 0x30783235434509092a09232042554c4c53455945),
  (24, 0x30783235434609092a092320424c41434b20434952434c45),
  (0, 0x0),
  (39, 0x30783235443009092a092320434952434c452057495448204c4546542048414c4620424c41434b),
  (40, 0x30783235443109092a092320434952434c4520574954482052494748542048414c4620424c41434b),
  (40, 0x30783235443209092a092320434952434c452057495448204c4f5745522048414c4620424c41434b),
  (40, 0x30783235443309092a092320434952434c4520574954482055505045522048414c4620424c41434b),
  (50, 0x30783235443409092a092320434952434c452057495448205550504552205249474854205155414452414e5420424c41434b),
  (57, 0x30783235443509092a092320434952434c45205749544820414c4c20425554205550504552204c454654205155414452414e5420424c41434b),
  (34, 0x30783235443609092a0923204c4546542048414c4620424c41434b20434952434c45),
  (35, 0x30783235443709092a09232052494748542048414c4620424c41434b20434952434c45),
  (26, 0x30783235443809092a092320494e56455253452042554c4c4554),
  (32, 0x30783235443909092a092320494e564552534520574849544520434952434c45),
  (43, 0x30783235444109092a09232055505045522048414c4620494e564552534520574849544520434952434c45),
  (43, 0x30783235444209092a0923204c4f5745522048414c4620494e564552534520574849544520434952434c45),
  (44, 0x30783235444309092a0923205550504552204c454654205155414452414e542043495243554c415220415243),
  (45, 0x30783235444409092a0923205550504552205249474854205155414452414e542043495243554c415220415243),
  (45, 0x30783235444509092a0923204c4f574552205249474854205155414452414e542043495243554c415220415243),
  (44, 0x30783235444609092a0923204c4f574552204c454654205155414452414e542043495243554c415220415243),
  (0, 0x0),
  (29, 0x30783235453009092a09232055505045522048414c4620434952434c45),
  (29, 0x30783235453109092a0923204c4f5745522048414c4620434952434c45),
  (38, 0x30783235453209092a092320424c41434b204c4f57455220524947485420545249414e474c45),
  (37, 0x30783235453309092a092320424c41434b204c4f574552204c45465420545249414e474c45),
  (37, 0x30783235453409092a092320424c41434b205550504552204c45465420545249414e474c45),
  (38, 0x30783235453509092a092320424c41434b20555050455220524947485420545249414e474c45),
  (24, 0x30783235453609092a09232057484954452042554c4c4554),
  (39, 0x3078323545370909230923205351554152452057495448204c4546542048414c4620424c41434b),
  (40, 0x30783235453809092309232053515541524520574954482052494748542048414c4620424c41434b),
  (54, 0x3078323545390909230923205351554152452057495448205550504552204c45465420444941474f4e414c2048414c4620424c41434b),
  (55, 0x3078323545410909230923205351554152452057495448204c4f57455220524947485420444941474f4e414c2048414c4620424c41434b),
  (53, 0x307832354542090923092320574849544520535155415245205749544820564552544943414c20424953454354494e47204c494e45),
  (47, 0x30783235454309095e09232057484954452055502d504f494e54494e4720545249414e474c45205749544820444f54),
  (53, 0x30783235454409095e09232055502d504f494e54494e4720545249414e474c452057495448204c4546542048414c4620424c41434b),
  (54, 0x30783235454509095e09232055502d504f494e54494e4720545249414e474c4520574954482052494748542048414c4620424c41434b),
  (24, 0x30783235454609094f0923204c4152474520434952434c45),
  (0, 0x0),
  (49, 0x3078323546300909230923205748495445205351554152452057495448205550504552204c454654205155414452414e54),
  (49, 0x3078323546310909230923205748495445205351554152452057495448204c4f574552204c454654205155414452414e54),
  (50, 0x3078323546320909230923205748495445205351554152452057495448204c4f574552205249474854205155414452414e54),
  (50, 0x3078323546330909230923205748495445205351554152452057495448205550504552205249474854205155414452414e54),
  (49, 0x307832354634090923092320574849544520434952434c452057495448205550504552204c454654205155414452414e54),
  (49, 0x307832354635090923092320574849544520434952434c452057495448204c4f574552204c454654205155414452414e54),
  (50, 0x307832354636090923092320574849544520434952434c452057495448204c4f574552205249474854205155414452414e54),
  (50, 0x307832354637090923092320574849544520434952434c452057495448205550504552205249474854205155414452414e54),
  (0, 0x0),
  (1, 0x23),
  (29, 0x2320436861726163746572732030783236303020746f20307832364646)]

/-- Lines 5819-5918 of table/legacy/unidecode.tbl. -/
def legacy_unidecode_60 : List (Nat × Nat) := [
  (1, 0x23),
  (0, 0x0),
  (1, 0x23),
  (29, 0x2320436861726163746572732030783238303020746f20307832384646),
  (1, 0x23),
  (0, 0x0),
  (35, 0x3078323830300909222022092320425241494c4c45205041545445524e20424c414e4b),
  (34, 0x307832383031090961092320425241494c4c45205041545445524e20444f54532d31),
  (34, 0x307832383032090931092320425241494c4c45205041545445524e20444f54532d32),
  (35, 0x307832383033090962092320425241494c4c45205041545445524e20444f54532d3132),
  (36, 0x3078323830340909222722092320425241494c4c45205041545445524e20444f54532d33),
  (35, 0x30783238303509096b092320425241494c4c45205041545445524e20444f54532d3133),
  (35, 0x307832383036090932092320425241494c4c45205041545445524e20444f54532d3233),
  (36, 0x30783238303709096c092320425241494c4c45205041545445524e20444f54532d313233),
  (34, 0x307832383038090940092320425241494c4c45205041545445524e20444f54532d34),
  (35, 0x307832383039090963092320425241494c4c45205041545445524e20444f54532d3134),
  (35, 0x307832383041090969092320425241494c4c45205041545445524e20444f54532d3234),
  (36, 0x307832383042090966092320425241494c4c45205041545445524e20444f54532d313234),
  (35, 0x30783238304309092f092320425241494c4c45205041545445524e20444f54532d3334),
  (36, 0x30783238304409096d092320425241494c4c45205041545445524e20444f54532d313334),
  (36, 0x307832383045090973092320425241494c4c45205041545445524e20444f54532d323334),
  (37, 0x307832383046090970092320425241494c4c45205041545445524e20444f54532d31323334),
  (0, 0x0),
  (36, 0x3078323831300909272227092320425241494c4c45205041545445524e20444f54532d35),
  (35, 0x307832383131090965092320425241494c4c45205041545445524e20444f54532d3135),
  (35, 0x307832383132090933092320425241494c4c45205041545445524e20444f54532d3235),
  (36, 0x307832383133090968092320425241494c4c45205041545445524e20444f54532d313235),
  (35, 0x307832383134090939092320425241494c4c45205041545445524e20444f54532d3335),
  (36, 0x30783238313509096f092320425241494c4c45205041545445524e20444f54532d313335),
  (36, 0x307832383136090936092320425241494c4c45205041545445524e20444f54532d323335),
  (37, 0x307832383137090972092320425241494c4c45205041545445524e20444f54532d31323335),
  (35, 0x30783238313809095e092320425241494c4c45205041545445524e20444f54532d3435),
  (36, 0x307832383139090964092320425241494c4c45205041545445524e20444f54532d313435),
  (36, 0x30783238314109096a092320425241494c4c45205041545445524e20444f54532d323435),
  (37, 0x307832383142090967092320425241494c4c45205041545445524e20444f54532d31323435),
  (36, 0x30783238314309093e092320425241494c4c45205041545445524e20444f54532d333435),
  (37, 0x30783238314409096e092320425241494c4c45205041545445524e20444f54532d31333435),
  (37, 0x307832383145090974092320425241494c4c45205041545445524e20444f54532d32333435),
  (38, 0x307832383146090971092320425241494c4c45205041545445524e20444f54532d3132333435),
  (0, 0x0),
  (34, 0x30783238323009092c092320425241494c4c45205041545445524e20444f54532d36),
  (35, 0x30783238323109092a092320425241494c4c45205041545445524e20444f54532d3136),
  (35, 0x307832383232090935092320425241494c4c45205041545445524e20444f54532d3236),
  (36, 0x30783238323309093c092320425241494c4c45205041545445524e20444f54532d313236),
  (35, 0x30783238323409092d092320425241494c4c45205041545445524e20444f54532d3336),
  (36, 0x307832383235090975092320425241494c4c45205041545445524e20444f54532d313336),
  (36, 0x307832383236090938092320425241494c4c45205041545445524e20444f54532d323336),
  (37, 0x307832383237090976092320425241494c4c45205041545445524e20444f54532d31323336),
  (35, 0x30783238323809092e092320425241494c4c45205041545445524e20444f54532d3436),
  (36, 0x307832383239090925092320425241494c4c45205041545445524e20444f54532d313436),
  (36, 0x30783238324109095b092320425241494c4c45205041545445524e20444f54532d323436),
  (37, 0x307832383242090924092320425241494c4c45205041545445524e20444f54532d31323436),
  (36, 0x30783238324309092b092320425241494c4c45205041545445524e20444f54532d333436),
  (37, 0x307832383244090978092320425241494c4c45205041545445524e20444f54532d31333436),
  (37, 0x307832383245090921092320425241494c4c45205041545445524e20444f54532d32333436),
  (38, 0x307832383246090926092320425241494c4c45205041545445524e20444f54532d3132333436),
  (0, 0x0),
  (35, 0x30783238333009093b092320425241494c4c45205041545445524e20444f54532d3536),
  (36, 0x30783238333109093a092320425241494c4c45205041545445524e20444f54532d313536),
  (36, 0x307832383332090934092320425241494c4c45205041545445524e20444f54532d323536),
  (37, 0x30783238333309095c092320425241494c4c45205041545445524e20444f54532d31323536),
  (36, 0x307832383334090930092320425241494c4c45205041545445524e20444f54532d333536),
  (37, 0x30783238333509097a092320425241494c4c45205041545445524e20444f54532d31333536),
  (37, 0x307832383336090937092320425241494c4c45205041545445524e20444f54532d32333536),
  (38, 0x307832383337090928092320425241494c4c45205041545445524e20444f54532d3132333536),
  (36, 0x30783238333809095f092320425241494c4c45205041545445524e20444f54532d343536),
  (37, 0x307832383341090977092320425241494c4c45205041545445524e20444f54532d32343536),
  (38, 0x30783238334209095d092320425241494c4c45205041545445524e20444f54532d3132343536),
  (37, 0x307832383343090923092320425241494c4c45205041545445524e20444f54532d33343536),
  (38, 0x307832383344090979092320425241494c4c45205041545445524e20444f54532d3133343536),
  (38, 0x307832383345090929092320425241494c4c45205041545445524e20444f54532d3233343536),
  (39, 0x30783238334609093d092320425241494c4c45205041545445524e20444f54532d313233343536),
  (0, 0x0),
  (37, 0x30783238343009095b64375d092320425241494c4c45205041545445524e20444f54532d37),
  (39, 0x30783238343109095b6431375d092320425241494c4c45205041545445524e20444f54532d3137),
  (39, 0x30783238343209095b6432375d092320425241494c4c45205041545445524e20444f54532d3237),
  (41, 0x30783238343309095b643132375d092320425241494c4c45205041545445524e20444f54532d313237),
  (39, 0x30783238343409095b6433375d092320425241494c4c45205041545445524e20444f54532d3337),
  (41, 0x30783238343509095b643133375d092320425241494c4c45205041545445524e20444f54532d313337),
  (41, 0x30783238343609095b643233375d092320425241494c4c45205041545445524e20444f54532d323337),
  (43, 0x30783238343709095b64313233375d092320425241494c4c45205041545445524e20444f54532d31323337),
  (39, 0x30783238343809095b6434375d092320425241494c4c45205041545445524e20444f54532d3437),
  (41, 0x30783238343909095b643134375d092320425241494c4c45205041545445524e20444f54532d313437),
  (41, 0x30783238344109095b643234375d092320425241494c4c45205041545445524e20444f54532d323437),
  (43, 0x30783238344209095b64313234375d092320425241494c4c45205041545445524e20444f54532d31323437),
  (41, 0x30783238344309095b643334375d092320425241494c4c45205041545445524e20444f54532d333437),
  (43, 0x30783238344409095b64313334375d092320425241494c4c45205041545445524e20444f54532d31333437),
  (43, 0x30783238344509095b64323334375d092320425241494c4c45205041545445524e20444f54532d32333437),
  (45, 0x30783238344609095b6431323334375d092320425241494c4c45205041545445524e20444f54532d3132333437),
  (0, 0x0),
  (39, 0x30783238353009095b6435375d092320425241494c4c45205041545445524e20444f54532d3537),
  (41, 0x30783238353109095b643135375d092320425241494c4c45205041545445524e20444f54532d313537),
  (41, 0x30783238353209095b643235375d092320425241494c4c45205041545445524e20444f54532d323537),
  (43, 0x30783238353309095b64313235375d092320425241494c4c45205041545445524e20444f54532d31323537),
  (41, 0x30783238353409095b643335375d092320425241494c4c45205041545445524e20444f54532d333537),
  (43, 0x30783238353509095b64313335375d092320425241494c4c45205041545445524e20444f54532d31333537),
  (43, 0x30783238353609095b64323335375d092320425241494c4c45205041545445524e20444f54532d32333537),
  (45, 0x30783238353709095b6431323335375d092320425241494c4c45205041545445524e20444f54532d3132333537),
  (41, 0x30783238353809095b643435375d092320425241494c4c45205041545445524e20444f54532d343537),
  (43, 0x30783238353909095b64313435375d092320425241494c4c45205041545445524e20444f54532d31343537)]

/-- Lines 5919-6018 of table/legacy/unidecode.tbl. -/
def legacy_unidecode_61 : List (Nat × Nat) := [
  (43, 0x30783238354109095b64323435375d092320425241494c4c45205041545445524e20444f54532d32343537),
  (45, 0x30783238354209095b6431323435375d092320425241494c4c45205041545445524e20444f54532d3132343537),
  (43, 0x30783238354309095b64333435375d092320425241494c4c45205041545445524e20444f54532d33343537),
  (45, 0x30783238354409095b6431333435375d092320425241494c4c45205041545445524e20444f54532d3133343537),
  (45, 0x30783238354509095b6432333435375d092320425241494c4c45205041545445524e20444f54532d3233343537),
  (47, 0x30783238354609095b643132333435375d092320425241494c4c45205041545445524e20444f54532d313233343537),
  (0, 0x0),
  (39, 0x30783238363009095b6436375d092320425241494c4c45205041545445524e20444f54532d3637),
  (41, 0x30783238363109095b643136375d092320425241494c4c45205041545445524e20444f54532d313637),
  (41, 0x30783238363209095b643236375d092320425241494c4c45205041545445524e20444f54532d323637),
  (43, 0x30783238363309095b64313236375d092320425241494c4c45205041545445524e20444f54532d31323637),
  (41, 0x30783238363409095b643336375d092320425241494c4c45205041545445524e20444f54532d333637),
  (43, 0x30783238363509095b64313336375d092320425241494c4c45205041545445524e20444f54532d31333637),
  (43, 0x30783238363609095b64323336375d092320425241494c4c45205041545445524e20444f54532d32333637),
  (45, 0x30783238363709095b6431323336375d092320425241494c4c45205041545445524e20444f54532d3132333637),
  (41, 0x30783238363809095b643436375d092320425241494c4c45205041545445524e20444f54532d343637),
  (43, 0x30783238363909095b64313436375d092320425241494c4c45205041545445524e20444f54532d31343637),
  (43, 0x30783238364109095b64323436375d092320425241494c4c45205041545445524e20444f54532d32343637),
  (45, 0x30783238364209095b6431323436375d092320425241494c4c45205041545445524e20444f54532d3132343637),
  (43, 0x30783238364309095b64333436375d092320425241494c4c45205041545445524e20444f54532d33343637),
  (45, 0x30783238364409095b6431333436375d092320425241494c4c45205041545445524e20444f54532d3133343637),
  (45, 0x30783238364509095b6432333436375d092320425241494c4c45205041545445524e20444f54532d3233343637),
  (47, 0x30783238364609095b643132333436375d092320425241494c4c45205041545445524e20444f54532d313233343637),
  (0, 0x0),
  (41, 0x30783238373009095b643536375d092320425241494c4c45205041545445524e20444f54532d353637),
  (43, 0x30783238373109095b64313536375d092320425241494c4c45205041545445524e20444f54532d31353637),
  (43, 0x30783238373209095b64323536375d092320425241494c4c45205041545445524e20444f54532d32353637),
  (45, 0x30783238373309095b6431323536375d092320425241494c4c45205041545445524e20444f54532d3132353637),
  (43, 0x30783238373409095b64333536375d092320425241494c4c45205041545445524e20444f54532d33353637),
  (45, 0x30783238373509095b6431333536375d092320425241494c4c45205041545445524e20444f54532d3133353637),
  (45, 0x30783238373609095b6432333536375d092320425241494c4c45205041545445524e20444f54532d3233353637),
  (47, 0x30783238373709095b643132333536375d092320425241494c4c45205041545445524e20444f54532d313233353637),
  (43, 0x30783238373809095b64343536375d092320425241494c4c45205041545445524e20444f54532d34353637),
  (45, 0x30783238373909095b6431343536375d092320425241494c4c45205041545445524e20444f54532d3134353637),
  (45, 0x30783238374109095b6432343536375d092320425241494c4c45205041545445524e20444f54532d3234353637),
  (47, 0x30783238374209095b643132343536375d092320425241494c4c45205041545445524e20444f54532d313234353637),
  (45, 0x30783238374309095b6433343536375d092320425241494c4c45205041545445524e20444f54532d3334353637),
  (47, 0x30783238374409095b643133343536375d092320425241494c4c45205041545445524e20444f54532d313334353637),
  (47, 0x30783238374509095b643233343536375d092320425241494c4c45205041545445524e20444f54532d323334353637),
  (49, 0x30783238374609095b64313233343536375d092320425241494c4c45205041545445524e20444f54532d31323334353637),
  (0, 0x0),
  (37, 0x30783238383009095b64385d092320425241494c4c45205041545445524e20444f54532d38),
  (39, 0x30783238383109095b6431385d092320425241494c4c45205041545445524e20444f54532d3138),
  (39, 0x30783238383209095b6432385d092320425241494c4c45205041545445524e20444f54532d3238),
  (41, 0x30783238383309095b643132385d092320425241494c4c45205041545445524e20444f54532d313238),
  (39, 0x30783238383409095b6433385d092320425241494c4c45205041545445524e20444f54532d3338),
  (41, 0x30783238383509095b643133385d092320425241494c4c45205041545445524e20444f54532d313338),
  (41, 0x30783238383609095b643233385d092320425241494c4c45205041545445524e20444f54532d323338),
  (43, 0x30783238383709095b64313233385d092320425241494c4c45205041545445524e20444f54532d31323338),
  (39, 0x30783238383809095b6434385d092320425241494c4c45205041545445524e20444f54532d3438),
  (41, 0x30783238383909095b643134385d092320425241494c4c45205041545445524e20444f54532d313438),
  (41, 0x30783238384109095b643234385d092320425241494c4c45205041545445524e20444f54532d323438),
  (43, 0x30783238384209095b64313234385d092320425241494c4c45205041545445524e20444f54532d31323438),
  (41, 0x30783238384309095b643334385d092320425241494c4c45205041545445524e20444f54532d333438),
  (43, 0x30783238384409095b64313334385d092320425241494c4c45205041545445524e20444f54532d31333438),
  (43, 0x30783238384509095b64323334385d092320425241494c4c45205041545445524e20444f54532d32333438),
  (45, 0x30783238384609095b6431323334385d092320425241494c4c45205041545445524e20444f54532d3132333438),
  (0, 0x0),
  (39, 0x30783238393009095b6435385d092320425241494c4c45205041545445524e20444f54532d3538),
  (41, 0x30783238393109095b643135385d092320425241494c4c45205041545445524e20444f54532d313538),
  (41, 0x30783238393209095b643235385d092320425241494c4c45205041545445524e20444f54532d323538),
  (43, 0x30783238393309095b64313235385d092320425241494c4c45205041545445524e20444f54532d31323538),
  (41, 0x30783238393409095b643335385d092320425241494c4c45205041545445524e20444f54532d333538),
  (43, 0x30783238393509095b64313335385d092320425241494c4c45205041545445524e20444f54532d31333538),
  (43, 0x30783238393609095b64323335385d092320425241494c4c45205041545445524e20444f54532d32333538),
  (45, 0x30783238393709095b6431323335385d092320425241494c4c45205041545445524e20444f54532d3132333538),
  (41, 0x30783238393809095b643435385d092320425241494c4c45205041545445524e20444f54532d343538),
  (43, 0x30783238393909095b64313435385d092320425241494c4c45205041545445524e20444f54532d31343538),
  (43, 0x30783238394109095b64323435385d092320425241494c4c45205041545445524e20444f54532d32343538),
  (45, 0x30783238394209095b6431323435385d092320425241494c4c45205041545445524e20444f54532d3132343538),
  (43, 0x30783238394309095b64333435385d092320425241494c4c45205041545445524e20444f54532d33343538),
  (45, 0x30783238394409095b6431333435385d092320425241494c4c45205041545445524e20444f54532d3133343538),
  (45, 0x30783238394509095b6432333435385d092320425241494c4c45205041545445524e20444f54532d3233343538),
  (47, 0x30783238394609095b643132333435385d092320425241494c4c45205041545445524e20444f54532d313233343538),
  (0, 0x0),
  (39, 0x30783238413009095b6436385d092320425241494c4c45205041545445524e20444f54532d3638),
  (41, 0x30783238413109095b643136385d092320425241494c4c45205041545445524e20444f54532d313638),
  (41, 0x30783238413209095b643236385d092320425241494c4c45205041545445524e20444f54532d323638),
  (43, 0x30783238413309095b64313236385d092320425241494c4c45205041545445524e20444f54532d31323638),
  (41, 0x30783238413409095b643336385d092320425241494c4c45205041545445524e20444f54532d333638),
  (43, 0x30783238413509095b64313336385d092320425241494c4c45205041545445524e20444f54532d31333638),
  (43, 0x30783238413609095b64323336385d092320425241494c4c45205041545445524e20444f54532d32333638),
  (45, 0x30783238413709095b6431323336385d092320425241494c4c45205041545445524e20444f54532d3132333638),
  (41, 0x30783238413809095b643436385d092320425241494c4c45205041545445524e20444f54532d343638),
  (43, 0x30783238413909095b64313436385d092320425241494c4c45205041545445524e20444f54532d31343638),
  (43, 0x30783238414109095b64323436385d092320425241494c4c45205041545445524e20444f54532d32343638),
  (45, 0x30783238414209095b6431323436385d092320425241494c4c45205041545445524e20444f54532d3132343638),
  (43, 0x30783238414309095b64333436385d092320425241494c4c45205041545445524e20444f54532d33343638),
  (45, 0x30783238414409095b6431333436385d092320425241494c4c45205041545445524e20444f54532d3133343638),
  (45, 0x30783238414509095b6432333436385d092320425241494c4c45205041545445524e20444f54532d3233343638),
  (47, 0x30783238414609095b643132333436385d092320425241494c4c45205041545445524e20444f54532d313233343638),
  (0, 0x0),
  (41, 0x30783238423009095b643536385d092320425241494c4c45205041545445524e20444f54532d353638),
  (43, 0x30783238423109095b64313536385d092320425241494c4c45205041545445524e20444f54532d31353638),
  (43, 0x30783238423209095b64323536385d092320425241494c4c45205041545445524e20444f54532d32353638),
  (45, 0x30783238423309095b6431323536385d092320425241494c4c45205041545445524e20444f54532d3132353638),
  (43, 0x30783238423409095b64333536385d092320425241494c4c45205041545445524e20444f54532d33353638),
  (45, 0x30783238423509095b6431333536385d092320425241494c4c45205041545445524e20444f54532d3133353638),
  (45, 0x30783238423609095b6432333536385d092320425241494c4c45205041545445524e20444f54532d3233353638),
  (47, 0x30783238423709095b643132333536385d092320425241494c4c45205041545445524e20444f54532d313233353638)]

/-- Lines 6019-6118 of table/legacy/unidecode.tbl. -/
def legacy_unidecode_62 : List (Nat × Nat) := [
  (43, 0x30783238423809095b64343536385d092320425241494c4c45205041545445524e20444f54532d34353638),
  (45, 0x30783238423909095b6431343536385d092320425241494c4c45205041545445524e20444f54532d3134353638),
  (45, 0x30783238424109095b6432343536385d092320425241494c4c45205041545445524e20444f54532d3234353638),
  (47, 0x30783238424209095b643132343536385d092320425241494c4c45205041545445524e20444f54532d313234353638),
  (45, 0x30783238424309095b6433343536385d092320425241494c4c45205041545445524e20444f54532d3334353638),
  (47, 0x30783238424409095b643133343536385d092320425241494c4c45205041545445524e20444f54532d313334353638),
  (47, 0x30783238424509095b643233343536385d092320425241494c4c45205041545445524e20444f54532d323334353638),
  (49, 0x30783238424609095b64313233343536385d092320425241494c4c45205041545445524e20444f54532d31323334353638),
  (0, 0x0),
  (39, 0x30783238433009095b6437385d092320425241494c4c45205041545445524e20444f54532d3738),
  (41, 0x30783238433109095b643137385d092320425241494c4c45205041545445524e20444f54532d313738),
  (41, 0x30783238433209095b643237385d092320425241494c4c45205041545445524e20444f54532d323738),
  (43, 0x30783238433309095b64313237385d092320425241494c4c45205041545445524e20444f54532d31323738),
  (41, 0x30783238433409095b643337385d092320425241494c4c45205041545445524e20444f54532d333738),
  (43, 0x30783238433509095b64313337385d092320425241494c4c45205041545445524e20444f54532d31333738),
  (43, 0x30783238433609095b64323337385d092320425241494c4c45205041545445524e20444f54532d32333738),
  (45, 0x30783238433709095b6431323337385d092320425241494c4c45205041545445524e20444f54532d3132333738),
  (41, 0x30783238433809095b643437385d092320425241494c4c45205041545445524e20444f54532d343738),
  (43, 0x30783238433909095b64313437385d092320425241494c4c45205041545445524e20444f54532d31343738),
  (43, 0x30783238434109095b64323437385d092320425241494c4c45205041545445524e20444f54532d32343738),
  (45, 0x30783238434209095b6431323437385d092320425241494c4c45205041545445524e20444f54532d3132343738),
  (43, 0x30783238434309095b64333437385d092320425241494c4c45205041545445524e20444f54532d33343738),
  (45, 0x30783238434409095b6431333437385d092320425241494c4c45205041545445524e20444f54532d3133343738),
  (45, 0x30783238434509095b6432333437385d092320425241494c4c45205041545445524e20444f54532d3233343738),
  (47, 0x30783238434609095b643132333437385d092320425241494c4c45205041545445524e20444f54532d313233343738),
  (0, 0x0),
  (41, 0x30783238443009095b643537385d092320425241494c4c45205041545445524e20444f54532d353738),
  (43, 0x30783238443109095b64313537385d092320425241494c4c45205041545445524e20444f54532d31353738),
  (43, 0x30783238443209095b64323537385d092320425241494c4c45205041545445524e20444f54532d32353738),
  (45, 0x30783238443309095b6431323537385d092320425241494c4c45205041545445524e20444f54532d3132353738),
  (43, 0x30783238443409095b64333537385d092320425241494c4c45205041545445524e20444f54532d33353738),
  (45, 0x30783238443509095b6431333537385d092320425241494c4c45205041545445524e20444f54532d3133353738),
  (45, 0x30783238443609095b6432333537385d092320425241494c4c45205041545445524e20444f54532d3233353738),
  (47, 0x30783238443709095b643132333537385d092320425241494c4c45205041545445524e20444f54532d313233353738),
  (43, 0x30783238443809095b64343537385d092320425241494c4c45205041545445524e20444f54532d34353738),
  (45, 0x30783238443909095b6431343537385d092320425241494c4c45205041545445524e20444f54532d3134353738),
  (45, 0x30783238444109095b6432343537385d092320425241494c4c45205041545445524e20444f54532d3234353738),
  (47, 0x30783238444209095b643132343537385d092320425241494c4c45205041545445524e20444f54532d313234353738),
  (45, 0x30783238444309095b6433343537385d092320425241494c4c45205041545445524e20444f54532d3334353738),
  (47, 0x30783238444409095b643133343537385d092320425241494c4c45205041545445524e20444f54532d313334353738),
  (47, 0x30783238444509095b643233343537385d092320425241494c4c45205041545445524e20444f54532d323334353738),
  (49, 0x30783238444609095b64313233343537385d092320425241494c4c45205041545445524e20444f54532d31323334353738),
  (0, 0x0),
  (41, 0x30783238453009095b643637385d092320425241494c4c45205041545445524e20444f54532d363738),
  (43, 0x30783238453109095b64313637385d092320425241494c4c45205041545445524e20444f54532d31363738),
  (43, 0x30783238453209095b64323637385d092320425241494c4c45205041545445524e20444f54532d32363738),
  (45, 0x30783238453309095b6431323637385d092320425241494c4c45205041545445524e20444f54532d3132363738),
  (43, 0x30783238453409095b64333637385d092320425241494c4c45205041545445524e20444f54532d33363738),
  (45, 0x30783238453509095b6431333637385d092320425241494c4c45205041545445524e20444f54532d3133363738),
  (45, 0x30783238453609095b6432333637385d092320425241494c4c45205041545445524e20444f54532d3233363738),
  (47, 0x30783238453709095b643132333637385d092320425241494c4c45205041545445524e20444f54532d313233363738),
  (43, 0x30783238453809095b64343637385d092320425241494c4c45205041545445524e20444f54532d34363738),
  (45, 0x30783238453909095b6431343637385d092320425241494c4c45205041545445524e20444f54532d3134363738),
  (45, 0x30783238454109095b6432343637385d092320425241494c4c45205041545445524e20444f54532d3234363738),
  (47, 0x30783238454209095b643132343637385d092320425241494c4c45205041545445524e20444f54532d313234363738),
  (45, 0x30783238454309095b6433343637385d092320425241494c4c45205041545445524e20444f54532d3334363738),
  (47, 0x30783238454409095b643133343637385d092320425241494c4c45205041545445524e20444f54532d313334363738),
  (47, 0x30783238454509095b643233343637385d092320425241494c4c45205041545445524e20444f54532d323334363738),
  (49, 0x30783238454609095b64313233343637385d092320425241494c4c45205041545445524e20444f54532d31323334363738),
  (0, 0x0),
  (43, 0x30783238463009095b64353637385d092320425241494c4c45205041545445524e20444f54532d35363738),
  (45, 0x30783238463109095b6431353637385d092320425241494c4c45205041545445524e20444f54532d3135363738),
  (45, 0x30783238463209095b6432353637385d092320425241494c4c45205041545445524e20444f54532d3235363738),
  (47, 0x30783238463309095b643132353637385d092320425241494c4c45205041545445524e20444f54532d313235363738),
  (45, 0x30783238463409095b6433353637385d092320425241494c4c45205041545445524e20444f54532d3335363738),
  (47, 0x30783238463509095b643133353637385d092320425241494c4c45205041545445524e20444f54532d313335363738),
  (47, 0x30783238463609095b643233353637385d092320425241494c4c45205041545445524e20444f54532d323335363738),
  (49, 0x30783238463709095b64313233353637385d092320425241494c4c45205041545445524e20444f54532d31323335363738),
  (45, 0x30783238463809095b6434353637385d092320425241494c4c45205041545445524e20444f54532d3435363738),
  (47, 0x30783238463909095b643134353637385d092320425241494c4c45205041545445524e20444f54532d313435363738),
  (47, 0x30783238464109095b643234353637385d092320425241494c4c45205041545445524e20444f54532d323435363738),
  (49, 0x30783238464209095b64313234353637385d092320425241494c4c45205041545445524e20444f54532d31323435363738),
  (47, 0x30783238464309095b643334353637385d092320425241494c4c45205041545445524e20444f54532d333435363738),
  (49, 0x30783238464409095b64313334353637385d092320425241494c4c45205041545445524e20444f54532d31333435363738),
  (49, 0x30783238464509095b64323334353637385d092320425241494c4c45205041545445524e20444f54532d32333435363738),
  (51, 0x30783238464609095b6431323334353637385d092320425241494c4c45205041545445524e20444f54532d3132333435363738),
  (0, 0x0),
  (1, 0x23),
  (29, 0x2320436861726163746572732030783239303020746f20307832394646),
  (1, 0x23),
  (0, 0x0),
  (1, 0x23),
  (29, 0x2320436861726163746572732030783241303020746f20307832414646),
  (1, 0x23),
  (0, 0x0),
  (46, 0x30783241374209093f0923204c4553532d5448414e2057495448205155455354494f4e204d41524b2041424f5645),
  (49, 0x30783241374309093f092320475245415445522d5448414e2057495448205155455354494f4e204d41524b2041424f5645),
  (0, 0x0),
  (1, 0x23),
  (29, 0x2320436861726163746572732030783242303020746f20307832424646),
  (1, 0x23),
  (0, 0x0),
  (1, 0x23),
  (29, 0x2320436861726163746572732030783243303020746f20307832434646),
  (1, 0x23),
  (0, 0x0),
  (50, 0x30783243464109093f092320434f50544943204f4c44204e554249414e20444952454354205155455354494f4e204d41524b),
  (52, 0x30783243464209093f092320434f50544943204f4c44204e554249414e20494e444952454354205155455354494f4e204d41524b),
  (0, 0x0),
  (1, 0x23)]

/-- Lines 6119-6218 of table/legacy/unidecode.tbl. -/
def legacy_unidecode_63 : List (Nat × Nat) := [
  (29, 0x2320436861726163746572732030783244303020746f20307832444646),
  (1, 0x23),
  (0, 0x0),
  (1, 0x23),
  (29, 0x2320436861726163746572732030783245303020746f20307832454646),
  (1, 0x23),
  (0, 0x0),
  (32, 0x30783245313809093f092320494e56455254454420494e544552524f42414e47),
  (0, 0x0),
  (34, 0x30783245324509093f0923205245564552534544205155455354494f4e204d41524b),
  (0, 0x0),
  (1, 0x23),
  (29, 0x2320436861726163746572732030783246303020746f20307832464646),
  (1, 0x23),
  (0, 0x0),
  (1, 0x23),
  (29, 0x2320436861726163746572732030783330303020746f20307833304646),
  (1, 0x23),
  (0, 0x0),
  (31, 0x30783330303009092220220923204944454f47524150484943205350414345),
  (30, 0x30783330303109092c200923204944454f4752415048494320434f4d4d41),
  (34, 0x30783330303209092e200923204944454f475241504849432046554c4c2053544f50),
  (24, 0x3078333030330909272227092320444954544f204d41524b),
  (51, 0x30783330303409095b4a49535d0923204a4150414e45534520494e445553545249414c205354414e444152442053594d424f4c),
  (40, 0x30783330303509092722270923204944454f4752415048494320495445524154494f4e204d41524b),
  (36, 0x30783330303609092f0923204944454f4752415048494320434c4f53494e47204d41524b),
  (35, 0x3078333030370909300923204944454f47524150484943204e554d424552205a45524f),
  (30, 0x30783330303809093c0923204c45465420414e474c4520425241434b4554),
  (32, 0x30783330303909093e20092320524947485420414e474c4520425241434b4554),
  (38, 0x30783330304109093c3c0923204c45465420444f55424c4520414e474c4520425241434b4554),
  (40, 0x30783330304209093e3e20092320524947485420444f55424c4520414e474c4520425241434b4554),
  (31, 0x30783330304309095b0923204c45465420434f524e455220425241434b4554),
  (33, 0x30783330304409095d20092320524947485420434f524e455220425241434b4554),
  (37, 0x30783330304509097b0923204c45465420574849544520434f524e455220425241434b4554),
  (39, 0x30783330304609097d20092320524947485420574849544520434f524e455220425241434b4554),
  (0, 0x0),
  (42, 0x30783330313009095b280923204c45465420424c41434b204c454e544943554c415220425241434b4554),
  (44, 0x3078333031310909295d20092320524947485420424c41434b204c454e544943554c415220425241434b4554),
  (23, 0x307833303132090940092320504f5354414c204d41524b),
  (22, 0x3078333031330909582009232047455441204d41524b),
  (39, 0x30783330313409095b0923204c45465420544f52544f495345205348454c4c20425241434b4554),
  (41, 0x30783330313509095d20092320524947485420544f52544f495345205348454c4c20425241434b4554),
  (42, 0x30783330313609095b5b0923204c454654205748495445204c454e544943554c415220425241434b4554),
  (44, 0x30783330313709095d5d200923205249474854205748495445204c454e544943554c415220425241434b4554),
  (46, 0x307833303138090928280923204c45465420574849544520544f52544f495345205348454c4c20425241434b4554),
  (48, 0x3078333031390909292920092320524947485420574849544520544f52544f495345205348454c4c20425241434b4554),
  (38, 0x30783330314109095b5b0923204c4546542057484954452053515541524520425241434b4554),
  (40, 0x30783330314209095d5d2009232052494748542057484954452053515541524520425241434b4554),
  (22, 0x30783330314309097e20092320574156452044415348),
  (49, 0x30783330314409096060092320524556455253454420444f55424c45205052494d452051554f544154494f4e204d41524b),
  (42, 0x307833303145090922272722092320444f55424c45205052494d452051554f544154494f4e204d41524b),
  (44, 0x30783330314609092c2c0923204c4f5720444f55424c45205052494d452051554f544154494f4e204d41524b),
  (0, 0x0),
  (28, 0x307833303230090940092320504f5354414c204d41524b2046414345),
  (32, 0x30783330323109093109232048414e475a484f55204e554d4552414c204f4e45),
  (32, 0x30783330323209093209232048414e475a484f55204e554d4552414c2054574f),
  (34, 0x30783330323309093309232048414e475a484f55204e554d4552414c205448524545),
  (33, 0x30783330323409093409232048414e475a484f55204e554d4552414c20464f5552),
  (33, 0x30783330323509093509232048414e475a484f55204e554d4552414c2046495645),
  (32, 0x30783330323609093609232048414e475a484f55204e554d4552414c20534958),
  (34, 0x30783330323709093709232048414e475a484f55204e554d4552414c20534556454e),
  (34, 0x30783330323809093809232048414e475a484f55204e554d4552414c204549474854),
  (33, 0x30783330323909093909232048414e475a484f55204e554d4552414c204e494e45),
  (0, 0x0),
  (21, 0x30783330333009097e092320574156592044415348),
  (37, 0x30783330333109092b092320564552544943414c204b414e4120524550454154204d41524b),
  (55, 0x30783330333209092b092320564552544943414c204b414e4120524550454154205749544820564f4943454420534f554e44204d41524b),
  (48, 0x30783330333309092b092320564552544943414c204b414e4120524550454154204d41524b2055505045522048414c46),
  (66, 0x30783330333409092b092320564552544943414c204b414e4120524550454154205749544820564f4943454420534f554e44204d41524b2055505045522048414c46),
  (31, 0x307833303336090940092320434952434c454420504f5354414c204d41524b),
  (63, 0x3078333033370909202f2f200923204944454f475241504849432054454c454752415048204c494e45204645454420534550415241544f522053594d424f4c),
  (35, 0x30783330333809092b31302b09232048414e475a484f55204e554d4552414c2054454e),
  (38, 0x30783330333909092b32302b09232048414e475a484f55204e554d4552414c205457454e5459),
  (38, 0x30783330334109092b33302b09232048414e475a484f55204e554d4552414c20544849525459),
  (35, 0x3078333034310909610923204849524147414e41204c455454455220534d414c4c2041),
  (29, 0x3078333034320909610923204849524147414e41204c45545445522041),
  (35, 0x3078333034330909690923204849524147414e41204c455454455220534d414c4c2049),
  (29, 0x3078333034340909690923204849524147414e41204c45545445522049),
  (35, 0x3078333034350909750923204849524147414e41204c455454455220534d414c4c2055),
  (29, 0x3078333034360909750923204849524147414e41204c45545445522055),
  (35, 0x3078333034370909650923204849524147414e41204c455454455220534d414c4c2045),
  (29, 0x3078333034380909650923204849524147414e41204c45545445522045),
  (35, 0x30783330343909096f0923204849524147414e41204c455454455220534d414c4c204f),
  (29, 0x30783330344109096f0923204849524147414e41204c4554544552204f),
  (31, 0x30783330344209096b610923204849524147414e41204c4554544552204b41),
  (31, 0x307833303443090967610923204849524147414e41204c4554544552204741),
  (31, 0x30783330344409096b690923204849524147414e41204c4554544552204b49),
  (31, 0x307833303445090967690923204849524147414e41204c4554544552204749),
  (31, 0x30783330344609096b750923204849524147414e41204c4554544552204b55),
  (0, 0x0),
  (31, 0x307833303530090967750923204849524147414e41204c4554544552204755),
  (31, 0x30783330353109096b650923204849524147414e41204c4554544552204b45),
  (31, 0x307833303532090967650923204849524147414e41204c4554544552204745),
  (31, 0x30783330353309096b6f0923204849524147414e41204c4554544552204b4f),
  (31, 0x3078333035340909676f0923204849524147414e41204c455454455220474f),
  (31, 0x307833303535090973610923204849524147414e41204c4554544552205341),
  (31, 0x30783330353609097a610923204849524147414e41204c4554544552205a41),
  (31, 0x307833303537090973690923204849524147414e41204c4554544552205349),
  (31, 0x30783330353809097a690923204849524147414e41204c4554544552205a49),
  (31, 0x307833303539090973750923204849524147414e41204c4554544552205355)]

/-- Lines 6219-6318 of table/legacy/unidecode.tbl. -/
def legacy_unidecode_64 : List (Nat × Nat) := [
  (31, 0x30783330354109097a750923204849524147414e41204c4554544552205a55),
  (31, 0x307833303542090973650923204849524147414e41204c4554544552205345),
  (31, 0x30783330354309097a650923204849524147414e41204c4554544552205a45),
  (31, 0x3078333035440909736f0923204849524147414e41204c455454455220534f),
  (31, 0x30783330354509097a6f0923204849524147414e41204c4554544552205a4f),
  (31, 0x307833303546090974610923204849524147414e41204c4554544552205441),
  (0, 0x0),
  (31, 0x307833303630090964610923204849524147414e41204c4554544552204441),
  (31, 0x307833303631090974690923204849524147414e41204c4554544552205449),
  (31, 0x307833303632090964690923204849524147414e41204c4554544552204449),
  (37, 0x307833303633090974750923204849524147414e41204c455454455220534d414c4c205455),
  (31, 0x307833303634090974750923204849524147414e41204c4554544552205455),
  (31, 0x307833303635090964750923204849524147414e41204c4554544552204455),
  (31, 0x307833303636090974650923204849524147414e41204c4554544552205445),
  (31, 0x307833303637090964650923204849524147414e41204c4554544552204445),
  (31, 0x3078333036380909746f0923204849524147414e41204c455454455220544f),
  (31, 0x3078333036390909646f0923204849524147414e41204c455454455220444f),
  (31, 0x30783330364109096e610923204849524147414e41204c4554544552204e41),
  (31, 0x30783330364209096e690923204849524147414e41204c4554544552204e49),
  (31, 0x30783330364309096e750923204849524147414e41204c4554544552204e55),
  (31, 0x30783330364409096e650923204849524147414e41204c4554544552204e45),
  (31, 0x30783330364509096e6f0923204849524147414e41204c4554544552204e4f),
  (31, 0x307833303646090968610923204849524147414e41204c4554544552204841),
  (0, 0x0),
  (31, 0x307833303730090962610923204849524147414e41204c4554544552204241),
  (31, 0x307833303731090970610923204849524147414e41204c4554544552205041),
  (31, 0x307833303732090968690923204849524147414e41204c4554544552204849),
  (31, 0x307833303733090962690923204849524147414e41204c4554544552204249),
  (31, 0x307833303734090970690923204849524147414e41204c4554544552205049),
  (31, 0x307833303735090968750923204849524147414e41204c4554544552204855),
  (31, 0x307833303736090962750923204849524147414e41204c4554544552204255),
  (31, 0x307833303737090970750923204849524147414e41204c4554544552205055),
  (31, 0x307833303738090968650923204849524147414e41204c4554544552204845),
  (31, 0x307833303739090962650923204849524147414e41204c4554544552204245),
  (31, 0x307833303741090970650923204849524147414e41204c4554544552205045),
  (31, 0x3078333037420909686f0923204849524147414e41204c455454455220484f),
  (31, 0x3078333037430909626f0923204849524147414e41204c455454455220424f),
  (31, 0x3078333037440909706f0923204849524147414e41204c455454455220504f),
  (31, 0x30783330374509096d610923204849524147414e41204c4554544552204d41),
  (31, 0x30783330374609096d690923204849524147414e41204c4554544552204d49),
  (0, 0x0),
  (31, 0x30783330383009096d750923204849524147414e41204c4554544552204d55),
  (31, 0x30783330383109096d650923204849524147414e41204c4554544552204d45),
  (31, 0x30783330383209096d6f0923204849524147414e41204c4554544552204d4f),
  (37, 0x307833303833090979610923204849524147414e41204c455454455220534d414c4c205941),
  (31, 0x307833303834090979610923204849524147414e41204c4554544552205941),
  (37, 0x307833303835090979750923204849524147414e41204c455454455220534d414c4c205955),
  (31, 0x307833303836090979750923204849524147414e41204c4554544552205955),
  (37, 0x3078333038370909796f0923204849524147414e41204c455454455220534d414c4c20594f),
  (31, 0x3078333038380909796f0923204849524147414e41204c455454455220594f),
  (31, 0x307833303839090972610923204849524147414e41204c4554544552205241),
  (31, 0x307833303841090972690923204849524147414e41204c4554544552205249),
  (31, 0x307833303842090972750923204849524147414e41204c4554544552205255),
  (31, 0x307833303843090972650923204849524147414e41204c4554544552205245),
  (31, 0x3078333038440909726f0923204849524147414e41204c455454455220524f),
  (37, 0x307833303845090977610923204849524147414e41204c455454455220534d414c4c205741),
  (31, 0x307833303846090977610923204849524147414e41204c4554544552205741),
  (0, 0x0),
  (31, 0x307833303930090977690923204849524147414e41204c4554544552205749),
  (31, 0x307833303931090977650923204849524147414e41204c4554544552205745),
  (31, 0x3078333039320909776f0923204849524147414e41204c455454455220574f),
  (29, 0x30783330393309096e0923204849524147414e41204c4554544552204e),
  (31, 0x307833303934090976750923204849524147414e41204c4554544552205655),
  (37, 0x30783330394409092722270923204849524147414e4120495445524154494f4e204d41524b),
  (44, 0x30783330394509092722270923204849524147414e4120564f4943454420495445524154494f4e204d41524b),
  (0, 0x0),
  (35, 0x3078333041310909610923204b4154414b414e41204c455454455220534d414c4c2041),
  (29, 0x3078333041320909610923204b4154414b414e41204c45545445522041),
  (35, 0x3078333041330909690923204b4154414b414e41204c455454455220534d414c4c2049),
  (29, 0x3078333041340909690923204b4154414b414e41204c45545445522049),
  (35, 0x3078333041350909750923204b4154414b414e41204c455454455220534d414c4c2055),
  (29, 0x3078333041360909750923204b4154414b414e41204c45545445522055),
  (35, 0x3078333041370909650923204b4154414b414e41204c455454455220534d414c4c2045),
  (29, 0x3078333041380909650923204b4154414b414e41204c45545445522045),
  (35, 0x30783330413909096f0923204b4154414b414e41204c455454455220534d414c4c204f),
  (29, 0x30783330414109096f0923204b4154414b414e41204c4554544552204f),
  (31, 0x30783330414209096b610923204b4154414b414e41204c4554544552204b41),
  (31, 0x307833304143090967610923204b4154414b414e41204c4554544552204741),
  (31, 0x30783330414409096b690923204b4154414b414e41204c4554544552204b49),
  (31, 0x307833304145090967690923204b4154414b414e41204c4554544552204749),
  (31, 0x30783330414609096b750923204b4154414b414e41204c4554544552204b55),
  (0, 0x0),
  (31, 0x307833304230090967750923204b4154414b414e41204c4554544552204755),
  (31, 0x30783330423109096b650923204b4154414b414e41204c4554544552204b45),
  (31, 0x307833304232090967650923204b4154414b414e41204c4554544552204745),
  (31, 0x30783330423309096b6f0923204b4154414b414e41204c4554544552204b4f),
  (31, 0x3078333042340909676f0923204b4154414b414e41204c455454455220474f),
  (31, 0x307833304235090973610923204b4154414b414e41204c4554544552205341),
  (31, 0x30783330423609097a610923204b4154414b414e41204c4554544552205a41),
  (31, 0x307833304237090973690923204b4154414b414e41204c4554544552205349),
  (31, 0x30783330423809097a690923204b4154414b414e41204c4554544552205a49),
  (31, 0x307833304239090973750923204b4154414b414e41204c4554544552205355),
  (31, 0x30783330424109097a750923204b4154414b414e41204c4554544552205a55),
  (31, 0x307833304242090973650923204b4154414b414e41204c4554544552205345),
  (31, 0x30783330424309097a650923204b4154414b414e41204c4554544552205a45),
  (31, 0x3078333042440909736f0923204b4154414b414e41204c455454455220534f),
  (31, 0x30783330424509097a6f0923204b4154414b414e41204c4554544552205a4f),
  (31, 0x307833304246090974610923204b4154414b414e41204c4554544552205441),
  (0, 0x0),
  (31, 0x307833304330090964610923204b4154414b414e41204c4554544552204441)]

/-- Lines 6319-6418 of table/legacy/unidecode.tbl. -/
def legacy_unidecode_65 : List (Nat × Nat) := [
  (31, 0x307833304331090974690923204b4154414b414e41204c4554544552205449),
  (31, 0x307833304332090964690923204b4154414b414e41204c4554544552204449),
  (37, 0x307833304333090974750923204b4154414b414e41204c455454455220534d414c4c205455),
  (31, 0x307833304334090974750923204b4154414b414e41204c4554544552205455),
  (31, 0x307833304335090964750923204b4154414b414e41204c4554544552204455),
  (31, 0x307833304336090974650923204b4154414b414e41204c4554544552205445),
  (31, 0x307833304337090964650923204b4154414b414e41204c4554544552204445),
  (31, 0x3078333043380909746f0923204b4154414b414e41204c455454455220544f),
  (31, 0x3078333043390909646f0923204b4154414b414e41204c455454455220444f),
  (31, 0x30783330434109096e610923204b4154414b414e41204c4554544552204e41),
  (31, 0x30783330434209096e690923204b4154414b414e41204c4554544552204e49),
  (31, 0x30783330434309096e750923204b4154414b414e41204c4554544552204e55),
  (31, 0x30783330434409096e650923204b4154414b414e41204c4554544552204e45),
  (31, 0x30783330434509096e6f0923204b4154414b414e41204c4554544552204e4f),
  (31, 0x307833304346090968610923204b4154414b414e41204c4554544552204841),
  (0, 0x0),
  (31, 0x307833304430090962610923204b4154414b414e41204c4554544552204241),
  (31, 0x307833304431090970610923204b4154414b414e41204c4554544552205041),
  (31, 0x307833304432090968690923204b4154414b414e41204c4554544552204849),
  (31, 0x307833304433090962690923204b4154414b414e41204c4554544552204249),
  (31, 0x307833304434090970690923204b4154414b414e41204c4554544552205049),
  (31, 0x307833304435090968750923204b4154414b414e41204c4554544552204855),
  (31, 0x307833304436090962750923204b4154414b414e41204c4554544552204255),
  (31, 0x307833304437090970750923204b4154414b414e41204c4554544552205055),
  (31, 0x307833304438090968650923204b4154414b414e41204c4554544552204845),
  (31, 0x307833304439090962650923204b4154414b414e41204c4554544552204245),
  (31, 0x307833304441090970650923204b4154414b414e41204c4554544552205045),
  (31, 0x3078333044420909686f0923204b4154414b414e41204c455454455220484f),
  (31, 0x3078333044430909626f0923204b4154414b414e41204c455454455220424f),
  (31, 0x3078333044440909706f0923204b4154414b414e41204c455454455220504f),
  (31, 0x30783330444509096d610923204b4154414b414e41204c4554544552204d41),
  (31, 0x30783330444609096d690923204b4154414b414e41204c4554544552204d49),
  (0, 0x0),
  (31, 0x30783330453009096d750923204b4154414b414e41204c4554544552204d55),
  (31, 0x30783330453109096d650923204b4154414b414e41204c4554544552204d45),
  (31, 0x30783330453209096d6f0923204b4154414b414e41204c4554544552204d4f),
  (37, 0x307833304533090979610923204b4154414b414e41204c455454455220534d414c4c205941),
  (31, 0x307833304534090979610923204b4154414b414e41204c4554544552205941),
  (37, 0x307833304535090979750923204b4154414b414e41204c455454455220534d414c4c205955),
  (31, 0x307833304536090979750923204b4154414b414e41204c4554544552205955),
  (37, 0x3078333045370909796f0923204b4154414b414e41204c455454455220534d414c4c20594f),
  (31, 0x3078333045380909796f0923204b4154414b414e41204c455454455220594f),
  (31, 0x307833304539090972610923204b4154414b414e41204c4554544552205241),
  (31, 0x307833304541090972690923204b4154414b414e41204c4554544552205249),
  (31, 0x307833304542090972750923204b4154414b414e41204c4554544552205255),
  (31, 0x307833304543090972650923204b4154414b414e41204c4554544552205245),
  (31, 0x3078333045440909726f0923204b4154414b414e41204c455454455220524f),
  (37, 0x307833304545090977610923204b4154414b414e41204c455454455220534d414c4c205741),
  (31, 0x307833304546090977610923204b4154414b414e41204c4554544552205741),
  (0, 0x0),
  (31, 0x307833304630090977690923204b4154414b414e41204c4554544552205749),
  (31, 0x307833304631090977650923204b4154414b414e41204c4554544552205745),
  (31, 0x3078333046320909776f0923204b4154414b414e41204c455454455220574f),
  (29, 0x30783330463309096e0923204b4154414b414e41204c4554544552204e),
  (31, 0x307833304634090976750923204b4154414b414e41204c4554544552205655),
  (37, 0x30783330463509096b610923204b4154414b414e41204c455454455220534d414c4c204b41),
  (37, 0x30783330463609096b650923204b4154414b414e41204c455454455220534d414c4c204b45),
  (31, 0x307833304637090976610923204b4154414b414e41204c4554544552205641),
  (31, 0x307833304638090976690923204b4154414b414e41204c4554544552205649),
  (31, 0x307833304639090976650923204b4154414b414e41204c4554544552205645),
  (31, 0x3078333046410909766f0923204b4154414b414e41204c455454455220564f),
  (37, 0x30783330464409092722270923204b4154414b414e4120495445524154494f4e204d41524b),
  (44, 0x30783330464509092722270923204b4154414b414e4120564f4943454420495445524154494f4e204d41524b),
  (29, 0x307833313035090942092320424f504f4d4f464f204c45545445522042),
  (29, 0x307833313036090950092320424f504f4d4f464f204c45545445522050),
  (29, 0x30783331303709094d092320424f504f4d4f464f204c4554544552204d),
  (29, 0x307833313038090946092320424f504f4d4f464f204c45545445522046),
  (29, 0x307833313039090944092320424f504f4d4f464f204c45545445522044),
  (29, 0x307833313041090954092320424f504f4d4f464f204c45545445522054),
  (29, 0x30783331304209094e092320424f504f4d4f464f204c4554544552204e),
  (29, 0x30783331304309094c092320424f504f4d4f464f204c4554544552204c),
  (29, 0x307833313044090947092320424f504f4d4f464f204c45545445522047),
  (29, 0x30783331304509094b092320424f504f4d4f464f204c4554544552204b),
  (29, 0x307833313046090948092320424f504f4d4f464f204c45545445522048),
  (0, 0x0),
  (29, 0x30783331313009094a092320424f504f4d4f464f204c4554544552204a),
  (29, 0x307833313131090951092320424f504f4d4f464f204c45545445522051),
  (29, 0x307833313132090958092320424f504f4d4f464f204c45545445522058),
  (31, 0x30783331313309095a48092320424f504f4d4f464f204c4554544552205a48),
  (31, 0x30783331313409094348092320424f504f4d4f464f204c4554544552204348),
  (31, 0x30783331313509095348092320424f504f4d4f464f204c4554544552205348),
  (29, 0x307833313136090952092320424f504f4d4f464f204c45545445522052),
  (29, 0x30783331313709095a092320424f504f4d4f464f204c4554544552205a),
  (29, 0x307833313138090943092320424f504f4d4f464f204c45545445522043),
  (29, 0x307833313139090953092320424f504f4d4f464f204c45545445522053),
  (29, 0x307833313141090941092320424f504f4d4f464f204c45545445522041),
  (29, 0x30783331314209094f092320424f504f4d4f464f204c4554544552204f),
  (29, 0x307833313143090945092320424f504f4d4f464f204c45545445522045),
  (31, 0x30783331314409094548092320424f504f4d4f464f204c4554544552204548),
  (31, 0x30783331314509094149092320424f504f4d4f464f204c4554544552204149),
  (31, 0x30783331314609094549092320424f504f4d4f464f204c4554544552204549),
  (0, 0x0),
  (31, 0x30783331323009094155092320424f504f4d4f464f204c4554544552204155),
  (31, 0x30783331323109094f55092320424f504f4d4f464f204c4554544552204f55),
  (31, 0x3078333132320909414e092320424f504f4d4f464f204c455454455220414e),
  (31, 0x3078333132330909454e092320424f504f4d4f464f204c455454455220454e),
  (33, 0x3078333132340909414e47092320424f504f4d4f464f204c455454455220414e47),
  (33, 0x3078333132350909454e47092320424f504f4d4f464f204c455454455220454e47),
  (31, 0x30783331323609094552092320424f504f4d4f464f204c4554544552204552),
  (29, 0x307833313237090949092320424f504f4d4f464f204c45545445522049)]

/-- Lines 6419-6518 of table/legacy/unidecode.tbl. -/
def legacy_unidecode_66 : List (Nat × Nat) := [
  (29, 0x307833313238090955092320424f504f4d4f464f204c45545445522055),
  (31, 0x30783331323909094955092320424f504f4d4f464f204c4554544552204955),
  (29, 0x307833313241090956092320424f504f4d4f464f204c45545445522056),
  (31, 0x30783331324209094e47092320424f504f4d4f464f204c4554544552204e47),
  (31, 0x3078333132430909474e092320424f504f4d4f464f204c455454455220474e),
  (32, 0x30783331333109096709232048414e47554c204c4554544552204b4959454f4b),
  (38, 0x3078333133320909676709232048414e47554c204c4554544552205353414e474b4959454f4b),
  (38, 0x3078333133330909677309232048414e47554c204c4554544552204b4959454f4b2d53494f53),
  (31, 0x30783331333409096e09232048414e47554c204c4554544552204e4945554e),
  (38, 0x30783331333509096e6a09232048414e47554c204c4554544552204e4945554e2d4349455543),
  (38, 0x30783331333609096e6809232048414e47554c204c4554544552204e4945554e2d4849455548),
  (32, 0x30783331333709096409232048414e47554c204c45545445522054494b455554),
  (38, 0x3078333133380909646409232048414e47554c204c4554544552205353414e4754494b455554),
  (31, 0x30783331333909097209232048414e47554c204c455454455220524945554c),
  (39, 0x30783331334109096c6709232048414e47554c204c455454455220524945554c2d4b4959454f4b),
  (38, 0x30783331334209096c6d09232048414e47554c204c455454455220524945554c2d4d4945554d),
  (38, 0x30783331334309096c6209232048414e47554c204c455454455220524945554c2d5049455550),
  (37, 0x30783331334409096c7309232048414e47554c204c455454455220524945554c2d53494f53),
  (40, 0x30783331334509096c7409232048414e47554c204c455454455220524945554c2d54484945555448),
  (40, 0x30783331334609096c7009232048414e47554c204c455454455220524945554c2d50484945555048),
  (0, 0x0),
  (38, 0x3078333134300909726809232048414e47554c204c455454455220524945554c2d4849455548),
  (31, 0x30783331343109096d09232048414e47554c204c4554544552204d4945554d),
  (31, 0x30783331343209096209232048414e47554c204c4554544552205049455550),
  (37, 0x3078333134330909626209232048414e47554c204c4554544552205353414e475049455550),
  (37, 0x3078333134340909627309232048414e47554c204c45545445522050494555502d53494f53),
  (30, 0x30783331343509097309232048414e47554c204c45545445522053494f53),
  (36, 0x3078333134360909737309232048414e47554c204c4554544552205353414e4753494f53),
  (31, 0x30783331343809096a09232048414e47554c204c4554544552204349455543),
  (37, 0x30783331343909096a6a09232048414e47554c204c4554544552205353414e474349455543),
  (33, 0x30783331344109096309232048414e47554c204c45545445522043484945554348),
  (33, 0x30783331344209096b09232048414e47554c204c4554544552204b484945554b48),
  (33, 0x30783331344309097409232048414e47554c204c45545445522054484945555448),
  (33, 0x30783331344409097009232048414e47554c204c45545445522050484945555048),
  (31, 0x30783331344509096809232048414e47554c204c4554544552204849455548),
  (27, 0x30783331344609096109232048414e47554c204c45545445522041),
  (0, 0x0),
  (29, 0x3078333135300909616509232048414e47554c204c4554544552204145),
  (29, 0x3078333135310909796109232048414e47554c204c4554544552205941),
  (31, 0x307833313532090979616509232048414e47554c204c455454455220594145),
  (29, 0x3078333135330909656f09232048414e47554c204c455454455220454f),
  (27, 0x30783331353409096509232048414e47554c204c45545445522045),
  (31, 0x307833313535090979656f09232048414e47554c204c45545445522059454f),
  (29, 0x3078333135360909796509232048414e47554c204c4554544552205945),
  (27, 0x30783331353709096f09232048414e47554c204c4554544552204f),
  (29, 0x3078333135380909776109232048414e47554c204c4554544552205741),
  (31, 0x307833313539090977616509232048414e47554c204c455454455220574145),
  (29, 0x30783331354109096f6509232048414e47554c204c4554544552204f45),
  (29, 0x3078333135420909796f09232048414e47554c204c455454455220594f),
  (27, 0x30783331354309097509232048414e47554c204c45545445522055),
  (31, 0x307833313544090977656f09232048414e47554c204c45545445522057454f),
  (29, 0x3078333135450909776509232048414e47554c204c4554544552205745),
  (29, 0x3078333135460909776909232048414e47554c204c4554544552205749),
  (0, 0x0),
  (29, 0x3078333136300909797509232048414e47554c204c4554544552205955),
  (29, 0x3078333136310909657509232048414e47554c204c4554544552204555),
  (29, 0x3078333136320909796909232048414e47554c204c4554544552205949),
  (27, 0x30783331363309096909232048414e47554c204c45545445522049),
  (37, 0x30783331363509096e6e09232048414e47554c204c4554544552205353414e474e4945554e),
  (39, 0x30783331363609096e6409232048414e47554c204c4554544552204e4945554e2d54494b455554),
  (37, 0x30783331363709096e7309232048414e47554c204c4554544552204e4945554e2d53494f53),
  (40, 0x30783331363809096e5a09232048414e47554c204c4554544552204e4945554e2d50414e53494f53),
  (45, 0x30783331363909096c677309232048414e47554c204c455454455220524945554c2d4b4959454f4b2d53494f53),
  (39, 0x30783331364109096c6409232048414e47554c204c455454455220524945554c2d54494b455554),
  (44, 0x30783331364209096c627309232048414e47554c204c455454455220524945554c2d50494555502d53494f53),
  (40, 0x30783331364309096c5a09232048414e47554c204c455454455220524945554c2d50414e53494f53),
  (44, 0x30783331364409096c5109232048414e47554c204c455454455220524945554c2d59454f52494e4849455548),
  (38, 0x30783331364509096d6209232048414e47554c204c4554544552204d4945554d2d5049455550),
  (37, 0x30783331364609096d7309232048414e47554c204c4554544552204d4945554d2d53494f53),
  (0, 0x0),
  (40, 0x30783331373009096d5a09232048414e47554c204c4554544552204d4945554d2d50414e53494f53),
  (40, 0x30783331373109096d4e09232048414e47554c204c4554544552204b415059454f554e4d4945554d),
  (39, 0x3078333137320909626709232048414e47554c204c45545445522050494555502d4b4959454f4b),
  (45, 0x307833313734090962736709232048414e47554c204c45545445522050494555502d53494f532d4b4959454f4b),
  (45, 0x307833313735090962737409232048414e47554c204c45545445522050494555502d53494f532d54494b455554),
  (38, 0x3078333137360909626a09232048414e47554c204c45545445522050494555502d4349455543),
  (40, 0x3078333137370909627409232048414e47554c204c45545445522050494555502d54484945555448),
  (40, 0x3078333137380909624e09232048414e47554c204c4554544552204b415059454f554e5049455550),
  (46, 0x307833313739090962624e09232048414e47554c204c4554544552204b415059454f554e5353414e475049455550),
  (38, 0x3078333137410909736709232048414e47554c204c45545445522053494f532d4b4959454f4b),
  (37, 0x3078333137420909736e09232048414e47554c204c45545445522053494f532d4e4945554e),
  (38, 0x3078333137430909736409232048414e47554c204c45545445522053494f532d54494b455554),
  (37, 0x3078333137440909736209232048414e47554c204c45545445522053494f532d5049455550),
  (37, 0x3078333137450909736a09232048414e47554c204c45545445522053494f532d4349455543),
  (33, 0x30783331374609095a09232048414e47554c204c45545445522050414e53494f53),
  (0, 0x0),
  (34, 0x30783331383109094e09232048414e47554c204c4554544552205945534945554e47),
  (40, 0x30783331383209094e7309232048414e47554c204c4554544552205945534945554e472d53494f53),
  (43, 0x30783331383309094e5a09232048414e47554c204c4554544552205945534945554e472d50414e53494f53),
  (42, 0x3078333138340909704e09232048414e47554c204c4554544552204b415059454f554e50484945555048),
  (37, 0x3078333138350909686809232048414e47554c204c4554544552205353414e474849455548),
  (37, 0x30783331383609095109232048414e47554c204c45545445522059454f52494e4849455548),
  (35, 0x3078333138370909796f2d796109232048414e47554c204c455454455220594f2d5941),
  (37, 0x3078333138380909796f2d79616509232048414e47554c204c455454455220594f2d594145),
  (33, 0x3078333138390909796f2d6909232048414e47554c204c455454455220594f2d49),
  (37, 0x307833313841090979752d79656f09232048414e47554c204c45545445522059552d59454f),
  (35, 0x307833313842090979752d796509232048414e47554c204c45545445522059552d5945),
  (33, 0x307833313843090979752d6909232048414e47554c204c45545445522059552d49),
  (31, 0x30783331384409095509232048414e47554c204c4554544552204152414541),
  (34, 0x3078333138450909552d6909232048414e47554c204c455454455220415241454145)]

/-- Lines 6519-6618 of table/legacy/unidecode.tbl. -/
def legacy_unidecode_67 : List (Nat × Nat) := [
  (0, 0x0),
  (31, 0x30783331413009094255092320424f504f4d4f464f204c4554544552204255),
  (31, 0x30783331413109095a49092320424f504f4d4f464f204c4554544552205a49),
  (31, 0x30783331413209094a49092320424f504f4d4f464f204c4554544552204a49),
  (31, 0x30783331413309094755092320424f504f4d4f464f204c4554544552204755),
  (31, 0x30783331413409094545092320424f504f4d4f464f204c4554544552204545),
  (33, 0x3078333141350909454e4e092320424f504f4d4f464f204c455454455220454e4e),
  (31, 0x30783331413609094f4f092320424f504f4d4f464f204c4554544552204f4f),
  (33, 0x30783331413709094f4e4e092320424f504f4d4f464f204c4554544552204f4e4e),
  (31, 0x30783331413809094952092320424f504f4d4f464f204c4554544552204952),
  (33, 0x3078333141390909414e4e092320424f504f4d4f464f204c455454455220414e4e),
  (33, 0x3078333141410909494e4e092320424f504f4d4f464f204c455454455220494e4e),
  (33, 0x3078333141420909554e4e092320424f504f4d4f464f204c455454455220554e4e),
  (31, 0x3078333141430909494d092320424f504f4d4f464f204c455454455220494d),
  (33, 0x30783331414409094e4747092320424f504f4d4f464f204c4554544552204e4747),
  (35, 0x307833314145090941494e4e092320424f504f4d4f464f204c45545445522041494e4e),
  (35, 0x307833314146090941554e4e092320424f504f4d4f464f204c45545445522041554e4e),
  (0, 0x0),
  (31, 0x3078333142300909414d092320424f504f4d4f464f204c455454455220414d),
  (31, 0x30783331423109094f4d092320424f504f4d4f464f204c4554544552204f4d),
  (33, 0x30783331423209094f4e47092320424f504f4d4f464f204c4554544552204f4e47),
  (35, 0x3078333142330909494e4e4e092320424f504f4d4f464f204c455454455220494e4e4e),
  (35, 0x307833314234090950092320424f504f4d4f464f2046494e414c204c45545445522050),
  (35, 0x307833314235090954092320424f504f4d4f464f2046494e414c204c45545445522054),
  (35, 0x30783331423609094b092320424f504f4d4f464f2046494e414c204c4554544552204b),
  (35, 0x307833314237090948092320424f504f4d4f464f2046494e414c204c45545445522048),
  (0, 0x0),
  (1, 0x23),
  (29, 0x2320436861726163746572732030783332303020746f20307833324646),
  (1, 0x23),
  (0, 0x0),
  (41, 0x3078333230300909286729092320504152454e54484553495a45442048414e47554c204b4959454f4b),
  (40, 0x3078333230310909286e29092320504152454e54484553495a45442048414e47554c204e4945554e),
  (41, 0x3078333230320909286429092320504152454e54484553495a45442048414e47554c2054494b455554),
  (40, 0x3078333230330909287229092320504152454e54484553495a45442048414e47554c20524945554c),
  (40, 0x3078333230340909286d29092320504152454e54484553495a45442048414e47554c204d4945554d),
  (40, 0x3078333230350909286229092320504152454e54484553495a45442048414e47554c205049455550),
  (39, 0x3078333230360909287329092320504152454e54484553495a45442048414e47554c2053494f53),
  (39, 0x30783332303709092829092320504152454e54484553495a45442048414e47554c204945554e47),
  (40, 0x3078333230380909286a29092320504152454e54484553495a45442048414e47554c204349455543),
  (42, 0x3078333230390909286329092320504152454e54484553495a45442048414e47554c2043484945554348),
  (42, 0x3078333230410909286b29092320504152454e54484553495a45442048414e47554c204b484945554b48),
  (42, 0x3078333230420909287429092320504152454e54484553495a45442048414e47554c2054484945555448),
  (42, 0x3078333230430909287029092320504152454e54484553495a45442048414e47554c2050484945555048),
  (40, 0x3078333230440909286829092320504152454e54484553495a45442048414e47554c204849455548),
  (44, 0x307833323045090928676129092320504152454e54484553495a45442048414e47554c204b4959454f4b2041),
  (43, 0x3078333230460909286e6129092320504152454e54484553495a45442048414e47554c204e4945554e2041),
  (0, 0x0),
  (44, 0x307833323130090928646129092320504152454e54484553495a45442048414e47554c2054494b4555542041),
  (43, 0x307833323131090928726129092320504152454e54484553495a45442048414e47554c20524945554c2041),
  (43, 0x3078333231320909286d6129092320504152454e54484553495a45442048414e47554c204d4945554d2041),
  (43, 0x307833323133090928626129092320504152454e54484553495a45442048414e47554c2050494555502041),
  (42, 0x307833323134090928736129092320504152454e54484553495a45442048414e47554c2053494f532041),
  (42, 0x3078333231350909286129092320504152454e54484553495a45442048414e47554c204945554e472041),
  (43, 0x3078333231360909286a6129092320504152454e54484553495a45442048414e47554c2043494555432041),
  (45, 0x307833323137090928636129092320504152454e54484553495a45442048414e47554c20434849455543482041),
  (45, 0x3078333231380909286b6129092320504152454e54484553495a45442048414e47554c204b484945554b482041),
  (45, 0x307833323139090928746129092320504152454e54484553495a45442048414e47554c20544849455554482041),
  (45, 0x307833323141090928706129092320504152454e54484553495a45442048414e47554c20504849455550482041),
  (43, 0x307833323142090928686129092320504152454e54484553495a45442048414e47554c2048494555482041),
  (43, 0x3078333231430909286a7529092320504152454e54484553495a45442048414e47554c2043494555432055),
  (0, 0x0),
  (42, 0x307833323230090928312920092320504152454e54484553495a4544204944454f4752415048204f4e45),
  (42, 0x307833323231090928322920092320504152454e54484553495a4544204944454f47524150482054574f),
  (44, 0x307833323232090928332920092320504152454e54484553495a4544204944454f4752415048205448524545),
  (43, 0x307833323233090928342920092320504152454e54484553495a4544204944454f475241504820464f5552),
  (43, 0x307833323234090928352920092320504152454e54484553495a4544204944454f47524150482046495645),
  (42, 0x307833323235090928362920092320504152454e54484553495a4544204944454f475241504820534958),
  (44, 0x307833323236090928372920092320504152454e54484553495a4544204944454f475241504820534556454e),
  (44, 0x307833323237090928382920092320504152454e54484553495a4544204944454f4752415048204549474854),
  (43, 0x307833323238090928392920092320504152454e54484553495a4544204944454f4752415048204e494e45),
  (43, 0x30783332323909092831302920092320504152454e54484553495a4544204944454f47524150482054454e),
  (45, 0x3078333232410909285975652920092320504152454e54484553495a4544204944454f4752415048204d4f4f4e),
  (45, 0x30783332324209092848756f2920092320504152454e54484553495a4544204944454f47524150482046495245),
  (47, 0x307833323243090928536875692920092320504152454e54484553495a4544204944454f4752415048205741544552),
  (44, 0x3078333232440909284d752920092320504152454e54484553495a4544204944454f475241504820574f4f44),
  (46, 0x3078333232450909284a696e2920092320504152454e54484553495a4544204944454f4752415048204d4554414c),
  (45, 0x30783332324609092854752920092320504152454e54484553495a4544204944454f4752415048204541525448),
  (0, 0x0),
  (43, 0x30783332333009092852692920092320504152454e54484553495a4544204944454f47524150482053554e),
  (46, 0x3078333233310909285a68752920092320504152454e54484553495a4544204944454f47524150482053544f434b),
  (45, 0x307833323332090928596f752920092320504152454e54484553495a4544204944454f47524150482048415645),
  (48, 0x3078333233330909285368652920092320504152454e54484553495a4544204944454f475241504820534f4349455459),
  (46, 0x3078333233340909284d696e672920092320504152454e54484553495a4544204944454f4752415048204e414d45),
  (47, 0x30783332333509092854652920092320504152454e54484553495a4544204944454f4752415048205350454349414c),
  (50, 0x3078333233360909284361692920092320504152454e54484553495a4544204944454f47524150482046494e414e4349414c),
  (55, 0x3078333233370909285a68752920092320504152454e54484553495a4544204944454f475241504820434f4e47524154554c4154494f4e),
  (46, 0x3078333233380909284c616f2920092320504152454e54484553495a4544204944454f4752415048204c41424f52),
  (50, 0x3078333233390909284461692920092320504152454e54484553495a4544204944454f475241504820524550524553454e54),
  (44, 0x30783332334109092848752920092320504152454e54484553495a4544204944454f47524150482043414c4c),
  (46, 0x3078333233420909285875652920092320504152454e54484553495a4544204944454f4752415048205354554459),
  (51, 0x3078333233430909284a69616e2920092320504152454e54484553495a4544204944454f475241504820535550455256495345),
  (50, 0x30783332334409092851692920092320504152454e54484553495a4544204944454f475241504820454e5445525052495345),
  (48, 0x3078333233450909285a692920092320504152454e54484553495a4544204944454f4752415048205245534f55524345),
  (49, 0x3078333233460909285869652920092320504152454e54484553495a4544204944454f475241504820414c4c49414e4345),
  (0, 0x0),
  (48, 0x3078333234300909284a692920092320504152454e54484553495a4544204944454f475241504820464553544956414c),
  (45, 0x3078333234310909285869752920092320504152454e54484553495a4544204944454f47524150482052455354),
  (41, 0x30783332343209093c3c092320504152454e54484553495a4544204944454f47524150482053454c46),
  (42, 0x30783332343309093e3e092320504152454e54484553495a4544204944454f4752415048205245414348)]

/-- Lines 6619-6718 of table/legacy/unidecode.tbl. -/
def legacy_unidecode_68 : List (Nat × Nat) := [
  (40, 0x30783332343409095b3f5d092320434952434c4544204944454f4752415048205155455354494f4e),
  (0, 0x0),
  (35, 0x3078333236300909286729092320434952434c45442048414e47554c204b4959454f4b),
  (34, 0x3078333236310909286e29092320434952434c45442048414e47554c204e4945554e),
  (35, 0x3078333236320909286429092320434952434c45442048414e47554c2054494b455554),
  (34, 0x3078333236330909287229092320434952434c45442048414e47554c20524945554c),
  (34, 0x3078333236340909286d29092320434952434c45442048414e47554c204d4945554d),
  (34, 0x3078333236350909286229092320434952434c45442048414e47554c205049455550),
  (33, 0x3078333236360909287329092320434952434c45442048414e47554c2053494f53),
  (33, 0x30783332363709092829092320434952434c45442048414e47554c204945554e47),
  (34, 0x3078333236380909286a29092320434952434c45442048414e47554c204349455543),
  (36, 0x3078333236390909286329092320434952434c45442048414e47554c2043484945554348),
  (36, 0x3078333236410909286b29092320434952434c45442048414e47554c204b484945554b48),
  (36, 0x3078333236420909287429092320434952434c45442048414e47554c2054484945555448),
  (36, 0x3078333236430909287029092320434952434c45442048414e47554c2050484945555048),
  (34, 0x3078333236440909286829092320434952434c45442048414e47554c204849455548),
  (38, 0x307833323645090928676129092320434952434c45442048414e47554c204b4959454f4b2041),
  (37, 0x3078333236460909286e6129092320434952434c45442048414e47554c204e4945554e2041),
  (0, 0x0),
  (38, 0x307833323730090928646129092320434952434c45442048414e47554c2054494b4555542041),
  (37, 0x307833323731090928726129092320434952434c45442048414e47554c20524945554c2041),
  (37, 0x3078333237320909286d6129092320434952434c45442048414e47554c204d4945554d2041),
  (37, 0x307833323733090928626129092320434952434c45442048414e47554c2050494555502041),
  (36, 0x307833323734090928736129092320434952434c45442048414e47554c2053494f532041),
  (36, 0x3078333237350909286129092320434952434c45442048414e47554c204945554e472041),
  (37, 0x3078333237360909286a6129092320434952434c45442048414e47554c2043494555432041),
  (39, 0x307833323737090928636129092320434952434c45442048414e47554c20434849455543482041),
  (39, 0x3078333237380909286b6129092320434952434c45442048414e47554c204b484945554b482041),
  (39, 0x307833323739090928746129092320434952434c45442048414e47554c20544849455554482041),
  (39, 0x307833323741090928706129092320434952434c45442048414e47554c20504849455550482041),
  (37, 0x307833323742090928686129092320434952434c45442048414e47554c2048494555482041),
  (37, 0x30783332374609094b4953200923204b4f5245414e205354414e444152442053594d424f4c),
  (0, 0x0),
  (36, 0x307833323830090928312920092320434952434c4544204944454f4752415048204f4e45),
  (36, 0x307833323831090928322920092320434952434c4544204944454f47524150482054574f),
  (38, 0x307833323832090928332920092320434952434c4544204944454f4752415048205448524545),
  (37, 0x307833323833090928342920092320434952434c4544204944454f475241504820464f5552),
  (37, 0x307833323834090928352920092320434952434c4544204944454f47524150482046495645),
  (36, 0x307833323835090928362920092320434952434c4544204944454f475241504820534958),
  (38, 0x307833323836090928372920092320434952434c4544204944454f475241504820534556454e),
  (38, 0x307833323837090928382920092320434952434c4544204944454f4752415048204549474854),
  (37, 0x307833323838090928392920092320434952434c4544204944454f4752415048204e494e45),
  (37, 0x30783332383909092831302920092320434952434c4544204944454f47524150482054454e),
  (39, 0x3078333238410909285975652920092320434952434c4544204944454f4752415048204d4f4f4e),
  (39, 0x30783332384209092848756f2920092320434952434c4544204944454f47524150482046495245),
  (41, 0x307833323843090928536875692920092320434952434c4544204944454f4752415048205741544552),
  (38, 0x3078333238440909284d752920092320434952434c4544204944454f475241504820574f4f44),
  (40, 0x3078333238450909284a696e2920092320434952434c4544204944454f4752415048204d4554414c),
  (39, 0x30783332384609092854752920092320434952434c4544204944454f4752415048204541525448),
  (0, 0x0),
  (37, 0x30783332393009092852692920092320434952434c4544204944454f47524150482053554e),
  (40, 0x3078333239310909285a68752920092320434952434c4544204944454f47524150482053544f434b),
  (39, 0x307833323932090928596f752920092320434952434c4544204944454f47524150482048415645),
  (42, 0x3078333239330909285368652920092320434952434c4544204944454f475241504820534f4349455459),
  (40, 0x3078333239340909284d696e672920092320434952434c4544204944454f4752415048204e414d45),
  (41, 0x30783332393509092854652920092320434952434c4544204944454f4752415048205350454349414c),
  (44, 0x3078333239360909284361692920092320434952434c4544204944454f47524150482046494e414e4349414c),
  (49, 0x3078333239370909285a68752920092320434952434c4544204944454f475241504820434f4e47524154554c4154494f4e),
  (40, 0x3078333239380909284c616f2920092320434952434c4544204944454f4752415048204c41424f52),
  (40, 0x3078333239390909284d692920092320434952434c4544204944454f475241504820534543524554),
  (39, 0x3078333239410909284e616e2920092320434952434c4544204944454f4752415048204d414c45),
  (40, 0x3078333239420909284e752920092320434952434c4544204944454f47524150482046454d414c45),
  (43, 0x3078333239430909285368692920092320434952434c4544204944454f4752415048205355495441424c45),
  (44, 0x307833323944090928596f752920092320434952434c4544204944454f475241504820455843454c4c454e54),
  (40, 0x30783332394509092859696e2920092320434952434c4544204944454f4752415048205052494e54),
  (44, 0x3078333239460909285a68752920092320434952434c4544204944454f475241504820415454454e54494f4e),
  (0, 0x0),
  (41, 0x3078333241300909285869616e672920092320434952434c4544204944454f4752415048204954454d),
  (39, 0x3078333241310909285869752920092320434952434c4544204944454f47524150482052455354),
  (39, 0x3078333241320909285869652920092320434952434c4544204944454f475241504820434f5059),
  (44, 0x3078333241330909285a68656e672920092320434952434c4544204944454f475241504820434f5252454354),
  (41, 0x3078333241340909285368616e672920092320434952434c4544204944454f47524150482048494748),
  (43, 0x3078333241350909285a686f6e672920092320434952434c4544204944454f47524150482043454e545245),
  (38, 0x3078333241360909285869612920092320434952434c4544204944454f4752415048204c4f57),
  (39, 0x3078333241370909285a756f2920092320434952434c4544204944454f4752415048204c454654),
  (40, 0x307833324138090928596f752920092320434952434c4544204944454f4752415048205249474854),
  (42, 0x30783332413909092859692920092320434952434c4544204944454f4752415048204d45444943494e45),
  (44, 0x3078333241410909285a6f6e672920092320434952434c4544204944454f47524150482052454c4947494f4e),
  (40, 0x3078333241420909285875652920092320434952434c4544204944454f4752415048205354554459),
  (45, 0x3078333241430909284a69616e2920092320434952434c4544204944454f475241504820535550455256495345),
  (44, 0x30783332414409092851692920092320434952434c4544204944454f475241504820454e5445525052495345),
  (42, 0x3078333241450909285a692920092320434952434c4544204944454f4752415048205245534f55524345),
  (43, 0x3078333241460909285869652920092320434952434c4544204944454f475241504820414c4c49414e4345),
  (0, 0x0),
  (39, 0x30783332423009092859652920092320434952434c4544204944454f4752415048204e49474854),
  (0, 0x0),
  (53, 0x3078333243300909314d0923204944454f475241504849432054454c4547524150482053594d424f4c20464f52204a414e55415259),
  (54, 0x3078333243310909324d0923204944454f475241504849432054454c4547524150482053594d424f4c20464f52204645425255415259),
  (51, 0x3078333243320909334d0923204944454f475241504849432054454c4547524150482053594d424f4c20464f52204d41524348),
  (51, 0x3078333243330909344d0923204944454f475241504849432054454c4547524150482053594d424f4c20464f5220415052494c),
  (49, 0x3078333243340909354d0923204944454f475241504849432054454c4547524150482053594d424f4c20464f52204d4159),
  (50, 0x3078333243350909364d0923204944454f475241504849432054454c4547524150482053594d424f4c20464f52204a554e45),
  (50, 0x3078333243360909374d0923204944454f475241504849432054454c4547524150482053594d424f4c20464f52204a554c59),
  (52, 0x3078333243370909384d0923204944454f475241504849432054454c4547524150482053594d424f4c20464f5220415547555354),
  (55, 0x3078333243380909394d0923204944454f475241504849432054454c4547524150482053594d424f4c20464f522053455054454d424552),
  (54, 0x307833324339090931304d0923204944454f475241504849432054454c4547524150482053594d424f4c20464f52204f43544f424552),
  (55, 0x307833324341090931314d0923204944454f475241504849432054454c4547524150482053594d424f4c20464f52204e4f56454d424552),
  (55, 0x307833324342090931324d0923204944454f475241504849432054454c4547524150482053594d424f4c20464f5220444543454d424552),
  (0, 0x0),
  (30, 0x307833324430090961092320434952434c4544204b4154414b414e412041)]

/-- Lines 6719-6818 of table/legacy/unidecode.tbl. -/
def legacy_unidecode_69 : List (Nat × Nat) := [
  (30, 0x307833324431090969092320434952434c4544204b4154414b414e412049),
  (30, 0x307833324432090975092320434952434c4544204b4154414b414e412055),
  (30, 0x307833324433090975092320434952434c4544204b4154414b414e412045),
  (30, 0x30783332443409096f092320434952434c4544204b4154414b414e41204f),
  (32, 0x30783332443509096b61092320434952434c4544204b4154414b414e41204b41),
  (32, 0x30783332443609096b69092320434952434c4544204b4154414b414e41204b49),
  (32, 0x30783332443709096b75092320434952434c4544204b4154414b414e41204b55),
  (32, 0x30783332443809096b65092320434952434c4544204b4154414b414e41204b45),
  (32, 0x30783332443909096b6f092320434952434c4544204b4154414b414e41204b4f),
  (32, 0x30783332444109097361092320434952434c4544204b4154414b414e41205341),
  (32, 0x30783332444209097369092320434952434c4544204b4154414b414e41205349),
  (32, 0x30783332444309097375092320434952434c4544204b4154414b414e41205355),
  (32, 0x30783332444409097365092320434952434c4544204b4154414b414e41205345),
  (32, 0x3078333244450909736f092320434952434c4544204b4154414b414e4120534f),
  (32, 0x30783332444609097461092320434952434c4544204b4154414b414e41205441),
  (0, 0x0),
  (32, 0x30783332453009097469092320434952434c4544204b4154414b414e41205449),
  (32, 0x30783332453109097475092320434952434c4544204b4154414b414e41205455),
  (32, 0x30783332453209097465092320434952434c4544204b4154414b414e41205445),
  (32, 0x3078333245330909746f092320434952434c4544204b4154414b414e4120544f),
  (32, 0x30783332453409096e61092320434952434c4544204b4154414b414e41204e41),
  (32, 0x30783332453509096e69092320434952434c4544204b4154414b414e41204e49),
  (32, 0x30783332453609096e75092320434952434c4544204b4154414b414e41204e55),
  (32, 0x30783332453709096e65092320434952434c4544204b4154414b414e41204e45),
  (32, 0x30783332453809096e6f092320434952434c4544204b4154414b414e41204e4f),
  (32, 0x30783332453909096861092320434952434c4544204b4154414b414e41204841),
  (32, 0x30783332454109096869092320434952434c4544204b4154414b414e41204849),
  (32, 0x30783332454209096875092320434952434c4544204b4154414b414e41204855),
  (32, 0x30783332454309096865092320434952434c4544204b4154414b414e41204845),
  (32, 0x3078333245440909686f092320434952434c4544204b4154414b414e4120484f),
  (32, 0x30783332454509096d61092320434952434c4544204b4154414b414e41204d41),
  (32, 0x30783332454609096d69092320434952434c4544204b4154414b414e41204d49),
  (0, 0x0),
  (32, 0x30783332463009096d75092320434952434c4544204b4154414b414e41204d55),
  (32, 0x30783332463109096d65092320434952434c4544204b4154414b414e41204d45),
  (32, 0x30783332463209096d6f092320434952434c4544204b4154414b414e41204d4f),
  (32, 0x30783332463309097961092320434952434c4544204b4154414b414e41205941),
  (32, 0x30783332463409097975092320434952434c4544204b4154414b414e41205955),
  (32, 0x3078333246350909796f092320434952434c4544204b4154414b414e4120594f),
  (32, 0x30783332463609097261092320434952434c4544204b4154414b414e41205241),
  (32, 0x30783332463709097269092320434952434c4544204b4154414b414e41205249),
  (32, 0x30783332463809097275092320434952434c4544204b4154414b414e41205255),
  (32, 0x30783332463909097265092320434952434c4544204b4154414b414e41205245),
  (32, 0x3078333246410909726f092320434952434c4544204b4154414b414e4120524f),
  (32, 0x30783332464209097761092320434952434c4544204b4154414b414e41205741),
  (32, 0x30783332464309097769092320434952434c4544204b4154414b414e41205749),
  (32, 0x30783332464409097765092320434952434c4544204b4154414b414e41205745),
  (32, 0x3078333246450909776f092320434952434c4544204b4154414b414e4120574f),
  (0, 0x0),
  (1, 0x23),
  (29, 0x2320436861726163746572732030783333303020746f20307833334646),
  (1, 0x23),
  (0, 0x0),
  (33, 0x307833333030090961706172746d656e740923205351554152452041504141544f),
  (29, 0x3078333330310909616c70686109232053515541524520415255485541),
  (29, 0x3078333330320909616d7065726509232053515541524520414e504541),
  (25, 0x30783333303309096172650923205351554152452041415255),
  (30, 0x3078333330340909696e6e696e6709232053515541524520494e494e4755),
  (26, 0x3078333330350909696e636809232053515541524520494e5449),
  (24, 0x3078333330360909776f6e09232053515541524520554f4e),
  (32, 0x307833333037090965736375646f092320535155415245204553554b5555444f),
  (27, 0x3078333330380909616372650923205351554152452045454b4141),
  (27, 0x30783333303909096f756e6365092320535155415245204f4e5355),
  (25, 0x30783333304109096f686d092320535155415245204f4f4d55),
  (29, 0x30783333304209096b61692d7269092320535155415245204b41495249),
  (30, 0x30783333304309096361726174092320535155415245204b41524154544f),
  (32, 0x307833333044090963616c6f726965092320535155415245204b41524f524949),
  (29, 0x307833333045090967616c6c6f6e092320535155415245204741524f4e),
  (28, 0x307833333046090967616d6d610923205351554152452047414e4d41),
  (0, 0x0),
  (26, 0x3078333331300909676967610923205351554152452047494741),
  (29, 0x30783333313109096775696e65610923205351554152452047494e4949),
  (29, 0x30783333313209096375726965092320535155415245204b5955524949),
  (32, 0x30783333313309096775696c6465720923205351554152452047495255444141),
  (26, 0x30783333313409096b696c6f092320535155415245204b49524f),
  (36, 0x30783333313509096b696c6f6772616d092320535155415245204b49524f475552414d55),
  (38, 0x30783333313609096b696c6f6d65746572092320535155415245204b49524f4d4545544f5255),
  (35, 0x30783333313709096b696c6f77617474092320535155415245204b49524f574154544f),
  (28, 0x30783333313809096772616d09232053515541524520475552414d55),
  (35, 0x30783333313909096772616d20746f6e09232053515541524520475552414d55544f4e),
  (35, 0x30783333314109096372757a6569726f092320535155415245204b5552555a4549524f),
  (30, 0x30783333314209096b726f6e65092320535155415245204b55524f4f4e45),
  (27, 0x307833333143090963617365092320535155415245204b45455355),
  (30, 0x30783333314409096b6f72756e61092320535155415245204b4f52554e41),
  (28, 0x3078333331450909636f2d6f70092320535155415245204b4f4f504f),
  (30, 0x30783333314609096379636c65092320535155415245205341494b555255),
  (0, 0x0),
  (33, 0x307833333230090963656e74696d650923205351554152452053414e5449494d55),
  (33, 0x30783333323109097368696c6c696e6709232053515541524520534952494e4755),
  (28, 0x307833333232090963656e74690923205351554152452053454e5449),
  (27, 0x307833333233090963656e740923205351554152452053454e544f),
  (28, 0x3078333332340909646f7a656e092320535155415245204441415355),
  (26, 0x3078333332350909646573690923205351554152452044455349),
  (28, 0x3078333332360909646f6c6c617209232053515541524520444f5255),
  (24, 0x3078333332370909746f6e09232053515541524520544f4e),
  (26, 0x30783333323809096e616e6f092320535155415245204e414e4f),
  (27, 0x30783333323909096b6e6f74092320535155415245204e4f54544f),
  (30, 0x307833333241090968656967687473092320535155415245204841495455),
  (33, 0x307833333242090970657263656e740923205351554152452050414153454e544f),
  (28, 0x30783333324309097061727473092320535155415245205041415455)]

/-- Lines 6819-6918 of table/legacy/unidecode.tbl. -/
def legacy_unidecode_70 : List (Nat × Nat) := [
  (31, 0x307833333244090962617272656c0923205351554152452042414152455255),
  (34, 0x307833333245090970696173746572092320535155415245205049415355544f5255),
  (29, 0x3078333332460909706963756c0923205351554152452050494b555255),
  (0, 0x0),
  (26, 0x30783333333009097069636f0923205351554152452050494b4f),
  (30, 0x30783333333109096275696c64696e670923205351554152452042495255),
  (31, 0x3078333333320909666172616409232053515541524520485541524144444f),
  (28, 0x3078333333330909666565740923205351554152452048554949544f),
  (32, 0x307833333334090962757368656c092320535155415245204255535359455255),
  (28, 0x30783333333509096672616e6309232053515541524520485552414e),
  (34, 0x3078333333360909686563746172650923205351554152452048454b555441415255),
  (26, 0x30783333333709097065736f092320535155415245205045534f),
  (31, 0x30783333333809097066656e6e69670923205351554152452050454e494849),
  (29, 0x3078333333390909686572747a09232053515541524520484552555455),
  (28, 0x307833333341090970656e63650923205351554152452050454e5355),
  (27, 0x307833333342090970616765092320535155415245205045455a49),
  (27, 0x307833333343090962657461092320535155415245204245455441),
  (29, 0x3078333333440909706f696e7409232053515541524520504f494e544f),
  (28, 0x3078333333450909766f6c7409232053515541524520424f5255544f),
  (24, 0x3078333333460909686f6e09232053515541524520484f4e),
  (0, 0x0),
  (28, 0x3078333334300909706f756e6409232053515541524520504f4e444f),
  (27, 0x307833333431090968616c6c09232053515541524520484f4f5255),
  (26, 0x3078333334320909686f726e09232053515541524520484f4f4e),
  (30, 0x30783333343309096d6963726f092320535155415245204d41494b55524f),
  (27, 0x30783333343409096d696c65092320535155415245204d41495255),
  (27, 0x30783333343509096d616368092320535155415245204d41484841),
  (28, 0x30783333343609096d61726b092320535155415245204d4152554b55),
  (32, 0x30783333343709096d616e73696f6e092320535155415245204d414e53594f4e),
  (31, 0x30783333343809096d6963726f6e092320535155415245204d494b55524f4e),
  (27, 0x30783333343909096d696c6c69092320535155415245204d495249),
  (35, 0x30783333344109096d696c6c69626172092320535155415245204d4952494241415255),
  (26, 0x30783333344209096d656761092320535155415245204d454741),
  (32, 0x30783333344309096d656761746f6e092320535155415245204d454741544f4e),
  (30, 0x30783333344409096d65746572092320535155415245204d4545544f5255),
  (27, 0x30783333344509097961726409232053515541524520594141444f),
  (27, 0x307833333446090979617264092320535155415245205941415255),
  (0, 0x0),
  (26, 0x30783333353009097975616e092320535155415245205955414e),
  (30, 0x30783333353109096c6974657209232053515541524520524954544f5255),
  (26, 0x30783333353209096c6972610923205351554152452052495241),
  (28, 0x30783333353309097275706565092320535155415245205255504949),
  (30, 0x30783333353409097275626c650923205351554152452052555542555255),
  (25, 0x307833333535090972656d0923205351554152452052454d55),
  (34, 0x3078333335360909726f656e7467656e0923205351554152452052454e544f47454e),
  (27, 0x30783333353709097761747409232053515541524520574154544f),
  (55, 0x307833333538090930680923204944454f475241504849432054454c4547524150482053594d424f4c20464f5220484f5552205a45524f),
  (54, 0x307833333539090931680923204944454f475241504849432054454c4547524150482053594d424f4c20464f5220484f5552204f4e45),
  (54, 0x307833333541090932680923204944454f475241504849432054454c4547524150482053594d424f4c20464f5220484f55522054574f),
  (56, 0x307833333542090933680923204944454f475241504849432054454c4547524150482053594d424f4c20464f5220484f5552205448524545),
  (55, 0x307833333543090934680923204944454f475241504849432054454c4547524150482053594d424f4c20464f5220484f555220464f5552),
  (55, 0x307833333544090935680923204944454f475241504849432054454c4547524150482053594d424f4c20464f5220484f55522046495645),
  (54, 0x307833333545090936680923204944454f475241504849432054454c4547524150482053594d424f4c20464f5220484f555220534958),
  (56, 0x307833333546090937680923204944454f475241504849432054454c4547524150482053594d424f4c20464f5220484f555220534556454e),
  (0, 0x0),
  (56, 0x307833333630090938680923204944454f475241504849432054454c4547524150482053594d424f4c20464f5220484f5552204549474854),
  (55, 0x307833333631090939680923204944454f475241504849432054454c4547524150482053594d424f4c20464f5220484f5552204e494e45),
  (55, 0x30783333363209093130680923204944454f475241504849432054454c4547524150482053594d424f4c20464f5220484f55522054454e),
  (58, 0x30783333363309093131680923204944454f475241504849432054454c4547524150482053594d424f4c20464f5220484f555220454c4556454e),
  (58, 0x30783333363409093132680923204944454f475241504849432054454c4547524150482053594d424f4c20464f5220484f5552205457454c5645),
  (60, 0x30783333363509093133680923204944454f475241504849432054454c4547524150482053594d424f4c20464f5220484f555220544849525445454e),
  (60, 0x30783333363609093134680923204944454f475241504849432054454c4547524150482053594d424f4c20464f5220484f555220464f55525445454e),
  (59, 0x30783333363709093135680923204944454f475241504849432054454c4547524150482053594d424f4c20464f5220484f5552204649465445454e),
  (59, 0x30783333363809093136680923204944454f475241504849432054454c4547524150482053594d424f4c20464f5220484f5552205349585445454e),
  (61, 0x30783333363909093137680923204944454f475241504849432054454c4547524150482053594d424f4c20464f5220484f555220534556454e5445454e),
  (60, 0x30783333364109093138680923204944454f475241504849432054454c4547524150482053594d424f4c20464f5220484f555220454947485445454e),
  (60, 0x30783333364209093139680923204944454f475241504849432054454c4547524150482053594d424f4c20464f5220484f5552204e494e455445454e),
  (58, 0x30783333364309093230680923204944454f475241504849432054454c4547524150482053594d424f4c20464f5220484f5552205457454e5459),
  (62, 0x30783333364409093231680923204944454f475241504849432054454c4547524150482053594d424f4c20464f5220484f5552205457454e54592d4f4e45),
  (62, 0x30783333364509093232680923204944454f475241504849432054454c4547524150482053594d424f4c20464f5220484f5552205457454e54592d54574f),
  (64, 0x30783333364609093233680923204944454f475241504849432054454c4547524150482053594d424f4c20464f5220484f5552205457454e54592d5448524545),
  (0, 0x0),
  (63, 0x30783333373009093234680923204944454f475241504849432054454c4547524150482053594d424f4c20464f5220484f5552205457454e54592d464f5552),
  (24, 0x307833333731090948504109232053515541524520485041),
  (22, 0x30783333373209096461092320535155415245204441),
  (22, 0x30783333373309094155092320535155415245204155),
  (24, 0x307833333734090962617209232053515541524520424152),
  (22, 0x30783333373509096f56092320535155415245204f56),
  (22, 0x30783333373609097063092320535155415245205043),
  (39, 0x307833333742090948656973656909232053515541524520455241204e414d4520484549534549),
  (39, 0x307833333743090953796f75776109232053515541524520455241204e414d452053594f555741),
  (41, 0x307833333744090954616973796f7509232053515541524520455241204e414d452054414953594f55),
  (37, 0x30783333374509094d65696a6909232053515541524520455241204e414d45204d45495a49),
  (33, 0x3078333337460909496e632e09232053515541524520434f52504f524154494f4e),
  (0, 0x0),
  (27, 0x3078333338300909704109232053515541524520504120414d5053),
  (22, 0x30783333383109096e41092320535155415245204e41),
  (30, 0x30783333383209096d6963726f616d70092320535155415245204d552041),
  (22, 0x30783333383309096d41092320535155415245204d41),
  (22, 0x30783333383409096b41092320535155415245204b41),
  (22, 0x30783333383509096b42092320535155415245204b42),
  (22, 0x30783333383609094d42092320535155415245204d42),
  (22, 0x30783333383709094742092320535155415245204742),
  (24, 0x307833333838090963616c0923205351554152452043414c),
  (26, 0x30783333383909096b63616c092320535155415245204b43414c),
  (22, 0x30783333384109097046092320535155415245205046),
  (22, 0x30783333384209096e46092320535155415245204e46),
  (32, 0x30783333384309096d6963726f4661726164092320535155415245204d552046),
  (31, 0x30783333384409096d6963726f6772616d092320535155415245204d552047),
  (22, 0x30783333384509096d67092320535155415245204d47)]

/-- Lines 6919-7018 of table/legacy/unidecode.tbl. -/
def legacy_unidecode_71 : List (Nat × Nat) := [
  (22, 0x30783333384609096b67092320535155415245204b47),
  (0, 0x0),
  (22, 0x3078333339300909487a09232053515541524520485a),
  (24, 0x30783333393109096b487a092320535155415245204b485a),
  (24, 0x30783333393209094d487a092320535155415245204d485a),
  (24, 0x307833333933090947487a0923205351554152452047485a),
  (24, 0x307833333934090954487a0923205351554152452054485a),
  (32, 0x30783333393509096d6963726f6c69746572092320535155415245204d55204c),
  (22, 0x30783333393609096d6c092320535155415245204d4c),
  (22, 0x3078333339370909646c09232053515541524520444c),
  (22, 0x30783333393809096b6c092320535155415245204b4c),
  (22, 0x3078333339390909666d09232053515541524520464d),
  (22, 0x30783333394109096e6d092320535155415245204e4d),
  (32, 0x30783333394209096d6963726f6d65746572092320535155415245204d55204d),
  (22, 0x30783333394309096d6d092320535155415245204d4d),
  (22, 0x3078333339440909636d09232053515541524520434d),
  (22, 0x30783333394509096b6d092320535155415245204b4d),
  (32, 0x30783333394609096d6d5e32092320535155415245204d4d2053515541524544),
  (0, 0x0),
  (32, 0x3078333341300909636d5e3209232053515541524520434d2053515541524544),
  (30, 0x30783333413109096d5e32092320535155415245204d2053515541524544),
  (32, 0x30783333413209096b6d5e32092320535155415245204b4d2053515541524544),
  (30, 0x30783333413309096d6d5e34092320535155415245204d4d204355424544),
  (30, 0x3078333341340909636d5e3309232053515541524520434d204355424544),
  (28, 0x30783333413509096d5e33092320535155415245204d204355424544),
  (30, 0x30783333413609096b6d5e33092320535155415245204b4d204355424544),
  (29, 0x30783333413709096d2f73092320535155415245204d204f5645522053),
  (39, 0x30783333413809096d2f735e32092320535155415245204d204f56455220532053515541524544),
  (22, 0x30783333413909095061092320535155415245205041),
  (24, 0x30783333414109096b5061092320535155415245204b5041),
  (24, 0x30783333414209094d5061092320535155415245204d5041),
  (24, 0x307833334143090947506109232053515541524520475041),
  (24, 0x307833334144090972616409232053515541524520524144),
  (33, 0x30783333414509097261642f7309232053515541524520524144204f5645522053),
  (43, 0x30783333414609097261642f735e3209232053515541524520524144204f56455220532053515541524544),
  (0, 0x0),
  (22, 0x30783333423009097073092320535155415245205053),
  (22, 0x30783333423109096e73092320535155415245204e53),
  (33, 0x30783333423209096d6963726f7365636f6e64092320535155415245204d552053),
  (22, 0x30783333423309096d73092320535155415245204d53),
  (22, 0x30783333423409097056092320535155415245205056),
  (22, 0x30783333423509096e56092320535155415245204e56),
  (31, 0x30783333423609096d6963726f766f6c74092320535155415245204d552056),
  (22, 0x30783333423709096d56092320535155415245204d56),
  (22, 0x30783333423809096b56092320535155415245204b56),
  (27, 0x30783333423909094d56092320535155415245204d56204d454741),
  (22, 0x30783333424109097057092320535155415245205057),
  (22, 0x30783333424209096e57092320535155415245204e57),
  (31, 0x30783333424309096d6963726f77617474092320535155415245204d552057),
  (22, 0x30783333424409096d57092320535155415245204d57),
  (22, 0x30783333424509096b57092320535155415245204b57),
  (27, 0x30783333424609094d57092320535155415245204d57204d454741),
  (0, 0x0),
  (27, 0x30783333433009096b4f686d092320535155415245204b204f484d),
  (27, 0x30783333433109094d4f686d092320535155415245204d204f484d),
  (24, 0x3078333343320909612e6d2e09232053515541524520414d),
  (22, 0x30783333433309094271092320535155415245204251),
  (22, 0x30783333433409096363092320535155415245204343),
  (22, 0x30783333433509096364092320535155415245204344),
  (31, 0x3078333343360909432f6b670923205351554152452043204f564552204b47),
  (23, 0x3078333343370909436f2e09232053515541524520434f),
  (22, 0x30783333433809096442092320535155415245204442),
  (22, 0x30783333433909094779092320535155415245204759),
  (22, 0x30783333434109096861092320535155415245204841),
  (22, 0x30783333434209094850092320535155415245204850),
  (22, 0x3078333343430909696e09232053515541524520494e),
  (24, 0x30783333434409094b2e4b2e092320535155415245204b4b),
  (30, 0x30783333434509094b4d092320535155415245204b4d204341504954414c),
  (22, 0x30783333434609096b74092320535155415245204b54),
  (0, 0x0),
  (22, 0x30783333443009096c6d092320535155415245204c4d),
  (22, 0x30783333443109096c6e092320535155415245204c4e),
  (24, 0x30783333443209096c6f67092320535155415245204c4f47),
  (22, 0x30783333443309096c78092320535155415245204c58),
  (28, 0x30783333443409096d62092320535155415245204d4220534d414c4c),
  (24, 0x30783333443509096d696c092320535155415245204d494c),
  (24, 0x30783333443609096d6f6c092320535155415245204d4f4c),
  (22, 0x30783333443709097048092320535155415245205048),
  (24, 0x3078333344380909702e6d2e09232053515541524520504d),
  (24, 0x307833334439090950504d0923205351554152452050504d),
  (22, 0x30783333444109095052092320535155415245205052),
  (22, 0x30783333444209097372092320535155415245205352),
  (22, 0x30783333444309095376092320535155415245205356),
  (22, 0x30783333444409095762092320535155415245205742),
  (0, 0x0),
  (53, 0x307833334530090931640923204944454f475241504849432054454c4547524150482053594d424f4c20464f5220444159204f4e45),
  (53, 0x307833334531090932640923204944454f475241504849432054454c4547524150482053594d424f4c20464f52204441592054574f),
  (55, 0x307833334532090933640923204944454f475241504849432054454c4547524150482053594d424f4c20464f5220444159205448524545),
  (54, 0x307833334533090934640923204944454f475241504849432054454c4547524150482053594d424f4c20464f522044415920464f5552),
  (54, 0x307833334534090935640923204944454f475241504849432054454c4547524150482053594d424f4c20464f52204441592046495645),
  (53, 0x307833334535090936640923204944454f475241504849432054454c4547524150482053594d424f4c20464f522044415920534958),
  (55, 0x307833334536090937640923204944454f475241504849432054454c4547524150482053594d424f4c20464f522044415920534556454e),
  (55, 0x307833334537090938640923204944454f475241504849432054454c4547524150482053594d424f4c20464f5220444159204549474854),
  (54, 0x307833334538090939640923204944454f475241504849432054454c4547524150482053594d424f4c20464f5220444159204e494e45),
  (54, 0x30783333453909093130640923204944454f475241504849432054454c4547524150482053594d424f4c20464f52204441592054454e),
  (57, 0x30783333454109093131640923204944454f475241504849432054454c4547524150482053594d424f4c20464f522044415920454c4556454e),
  (57, 0x30783333454209093132640923204944454f475241504849432054454c4547524150482053594d424f4c20464f5220444159205457454c5645),
  (59, 0x30783333454309093133640923204944454f475241504849432054454c4547524150482053594d424f4c20464f522044415920544849525445454e),
  (59, 0x30783333454409093134640923204944454f475241504849432054454c4547524150482053594d424f4c20464f522044415920464f55525445454e),
  (58, 0x30783333454509093135640923204944454f475241504849432054454c4547524150482053594d424f4c20464f5220444159204649465445454e)]

/-- Lines 7019-7118 of table/legacy/unidecode.tbl. -/
def legacy_unidecode_72 : List (Nat × Nat) := [
  (58, 0x30783333454609093136640923204944454f475241504849432054454c4547524150482053594d424f4c20464f5220444159205349585445454e),
  (0, 0x0),
  (60, 0x30783333463009093137640923204944454f475241504849432054454c4547524150482053594d424f4c20464f522044415920534556454e5445454e),
  (59, 0x30783333463109093138640923204944454f475241504849432054454c4547524150482053594d424f4c20464f522044415920454947485445454e),
  (59, 0x30783333463209093139640923204944454f475241504849432054454c4547524150482053594d424f4c20464f5220444159204e494e455445454e),
  (57, 0x30783333463309093230640923204944454f475241504849432054454c4547524150482053594d424f4c20464f5220444159205457454e5459),
  (61, 0x30783333463409093231640923204944454f475241504849432054454c4547524150482053594d424f4c20464f5220444159205457454e54592d4f4e45),
  (61, 0x30783333463509093232640923204944454f475241504849432054454c4547524150482053594d424f4c20464f5220444159205457454e54592d54574f),
  (63, 0x30783333463609093233640923204944454f475241504849432054454c4547524150482053594d424f4c20464f5220444159205457454e54592d5448524545),
  (62, 0x30783333463709093234640923204944454f475241504849432054454c4547524150482053594d424f4c20464f5220444159205457454e54592d464f5552),
  (62, 0x30783333463809093235640923204944454f475241504849432054454c4547524150482053594d424f4c20464f5220444159205457454e54592d46495645),
  (61, 0x30783333463909093236640923204944454f475241504849432054454c4547524150482053594d424f4c20464f5220444159205457454e54592d534958),
  (63, 0x30783333464109093237640923204944454f475241504849432054454c4547524150482053594d424f4c20464f5220444159205457454e54592d534556454e),
  (63, 0x30783333464209093238640923204944454f475241504849432054454c4547524150482053594d424f4c20464f5220444159205457454e54592d4549474854),
  (62, 0x30783333464309093239640923204944454f475241504849432054454c4547524150482053594d424f4c20464f5220444159205457454e54592d4e494e45),
  (57, 0x30783333464409093330640923204944454f475241504849432054454c4547524150482053594d424f4c20464f522044415920544849525459),
  (61, 0x30783333464509093331640923204944454f475241504849432054454c4547524150482053594d424f4c20464f5220444159205448495254592d4f4e45),
  (0, 0x0),
  (1, 0x23),
  (29, 0x2320436861726163746572732030783334303020746f20307833344646),
  (1, 0x23),
  (0, 0x0),
  (1, 0x23),
  (29, 0x2320436861726163746572732030783445303020746f20307834454646),
  (1, 0x23),
  (0, 0x0),
  (36, 0x30783445303009095969200923203c434a4b204964656f67726170682c2046697273743e),
  (0, 0x0),
  (1, 0x23),
  (29, 0x2320436861726163746572732030784130303020746f20307841304646),
  (1, 0x23),
  (0, 0x0),
  (27, 0x3078413030300909697409232059492053594c4c41424c45204954),
  (27, 0x3078413030310909697809232059492053594c4c41424c45204958),
  (25, 0x30784130303209096909232059492053594c4c41424c452049),
  (27, 0x3078413030330909697009232059492053594c4c41424c45204950),
  (29, 0x307841303034090969657409232059492053594c4c41424c4520494554),
  (29, 0x307841303035090969657809232059492053594c4c41424c4520494558),
  (27, 0x3078413030360909696509232059492053594c4c41424c45204945),
  (29, 0x307841303037090969657009232059492053594c4c41424c4520494550),
  (27, 0x3078413030380909617409232059492053594c4c41424c45204154),
  (27, 0x3078413030390909617809232059492053594c4c41424c45204158),
  (25, 0x30784130304109096109232059492053594c4c41424c452041),
  (27, 0x3078413030420909617009232059492053594c4c41424c45204150),
  (29, 0x3078413030430909756f7809232059492053594c4c41424c4520554f58),
  (27, 0x3078413030440909756f09232059492053594c4c41424c4520554f),
  (29, 0x3078413030450909756f7009232059492053594c4c41424c4520554f50),
  (27, 0x30784130304609096f7409232059492053594c4c41424c45204f54),
  (0, 0x0),
  (27, 0x30784130313009096f7809232059492053594c4c41424c45204f58),
  (25, 0x30784130313109096f09232059492053594c4c41424c45204f),
  (27, 0x30784130313209096f7009232059492053594c4c41424c45204f50),
  (27, 0x3078413031330909657809232059492053594c4c41424c45204558),
  (25, 0x30784130313409096509232059492053594c4c41424c452045),
  (27, 0x3078413031350909777509232059492053594c4c41424c45205755),
  (29, 0x307841303136090962697409232059492053594c4c41424c4520424954),
  (29, 0x307841303137090962697809232059492053594c4c41424c4520424958),
  (27, 0x3078413031380909626909232059492053594c4c41424c45204249),
  (29, 0x307841303139090962697009232059492053594c4c41424c4520424950),
  (31, 0x30784130314109096269657409232059492053594c4c41424c452042494554),
  (31, 0x30784130314209096269657809232059492053594c4c41424c452042494558),
  (29, 0x307841303143090962696509232059492053594c4c41424c4520424945),
  (31, 0x30784130314409096269657009232059492053594c4c41424c452042494550),
  (29, 0x307841303145090962617409232059492053594c4c41424c4520424154),
  (29, 0x307841303146090962617809232059492053594c4c41424c4520424158),
  (0, 0x0),
  (27, 0x3078413032300909626109232059492053594c4c41424c45204241),
  (29, 0x307841303231090962617009232059492053594c4c41424c4520424150),
  (31, 0x307841303232090962756f7809232059492053594c4c41424c452042554f58),
  (29, 0x307841303233090962756f09232059492053594c4c41424c452042554f),
  (31, 0x307841303234090962756f7009232059492053594c4c41424c452042554f50),
  (29, 0x3078413032350909626f7409232059492053594c4c41424c4520424f54),
  (29, 0x3078413032360909626f7809232059492053594c4c41424c4520424f58),
  (27, 0x3078413032370909626f09232059492053594c4c41424c4520424f),
  (29, 0x3078413032380909626f7009232059492053594c4c41424c4520424f50),
  (29, 0x307841303239090962657809232059492053594c4c41424c4520424558),
  (27, 0x3078413032410909626509232059492053594c4c41424c45204245),
  (29, 0x307841303242090962657009232059492053594c4c41424c4520424550),
  (29, 0x307841303243090962757409232059492053594c4c41424c4520425554),
  (29, 0x307841303244090962757809232059492053594c4c41424c4520425558),
  (27, 0x3078413032450909627509232059492053594c4c41424c45204255),
  (29, 0x307841303246090962757009232059492053594c4c41424c4520425550),
  (0, 0x0),
  (31, 0x30784130333009096275727809232059492053594c4c41424c452042555258),
  (29, 0x307841303331090962757209232059492053594c4c41424c4520425552),
  (29, 0x307841303332090962797409232059492053594c4c41424c4520425954),
  (29, 0x307841303333090962797809232059492053594c4c41424c4520425958),
  (27, 0x3078413033340909627909232059492053594c4c41424c45204259),
  (29, 0x307841303335090962797009232059492053594c4c41424c4520425950),
  (31, 0x30784130333609096279727809232059492053594c4c41424c452042595258),
  (29, 0x307841303337090962797209232059492053594c4c41424c4520425952),
  (29, 0x307841303338090970697409232059492053594c4c41424c4520504954),
  (29, 0x307841303339090970697809232059492053594c4c41424c4520504958),
  (27, 0x3078413033410909706909232059492053594c4c41424c45205049),
  (29, 0x307841303342090970697009232059492053594c4c41424c4520504950),
  (31, 0x30784130334309097069657809232059492053594c4c41424c452050494558),
  (29, 0x307841303344090970696509232059492053594c4c41424c4520504945),
  (31, 0x30784130334509097069657009232059492053594c4c41424c452050494550),
  (29, 0x307841303346090970617409232059492053594c4c41424c4520504154),
  (0, 0x0)]

/-- Lines 7119-7218 of table/legacy/unidecode.tbl. -/
def legacy_unidecode_73 : List (Nat × Nat) := [
  (29, 0x307841303430090970617809232059492053594c4c41424c4520504158),
  (27, 0x3078413034310909706109232059492053594c4c41424c45205041),
  (29, 0x307841303432090970617009232059492053594c4c41424c4520504150),
  (31, 0x307841303433090970756f7809232059492053594c4c41424c452050554f58),
  (29, 0x307841303434090970756f09232059492053594c4c41424c452050554f),
  (31, 0x307841303435090970756f7009232059492053594c4c41424c452050554f50),
  (29, 0x3078413034360909706f7409232059492053594c4c41424c4520504f54),
  (29, 0x3078413034370909706f7809232059492053594c4c41424c4520504f58),
  (27, 0x3078413034380909706f09232059492053594c4c41424c4520504f),
  (29, 0x3078413034390909706f7009232059492053594c4c41424c4520504f50),
  (29, 0x307841303441090970757409232059492053594c4c41424c4520505554),
  (29, 0x307841303442090970757809232059492053594c4c41424c4520505558),
  (27, 0x3078413034430909707509232059492053594c4c41424c45205055),
  (29, 0x307841303444090970757009232059492053594c4c41424c4520505550),
  (31, 0x30784130344509097075727809232059492053594c4c41424c452050555258),
  (29, 0x307841303446090970757209232059492053594c4c41424c4520505552),
  (0, 0x0),
  (29, 0x307841303530090970797409232059492053594c4c41424c4520505954),
  (29, 0x307841303531090970797809232059492053594c4c41424c4520505958),
  (27, 0x3078413035320909707909232059492053594c4c41424c45205059),
  (29, 0x307841303533090970797009232059492053594c4c41424c4520505950),
  (31, 0x30784130353409097079727809232059492053594c4c41424c452050595258),
  (29, 0x307841303535090970797209232059492053594c4c41424c4520505952),
  (31, 0x30784130353609096262697409232059492053594c4c41424c452042424954),
  (31, 0x30784130353709096262697809232059492053594c4c41424c452042424958),
  (29, 0x307841303538090962626909232059492053594c4c41424c4520424249),
  (31, 0x30784130353909096262697009232059492053594c4c41424c452042424950),
  (33, 0x3078413035410909626269657409232059492053594c4c41424c45204242494554),
  (33, 0x3078413035420909626269657809232059492053594c4c41424c45204242494558),
  (31, 0x30784130354309096262696509232059492053594c4c41424c452042424945),
  (33, 0x3078413035440909626269657009232059492053594c4c41424c45204242494550),
  (31, 0x30784130354509096262617409232059492053594c4c41424c452042424154),
  (31, 0x30784130354609096262617809232059492053594c4c41424c452042424158),
  (0, 0x0),
  (29, 0x307841303630090962626109232059492053594c4c41424c4520424241),
  (31, 0x30784130363109096262617009232059492053594c4c41424c452042424150),
  (33, 0x30784130363209096262756f7809232059492053594c4c41424c45204242554f58),
  (31, 0x30784130363309096262756f09232059492053594c4c41424c45204242554f),
  (33, 0x30784130363409096262756f7009232059492053594c4c41424c45204242554f50),
  (31, 0x307841303635090962626f7409232059492053594c4c41424c452042424f54),
  (31, 0x307841303636090962626f7809232059492053594c4c41424c452042424f58),
  (29, 0x307841303637090962626f09232059492053594c4c41424c452042424f),
  (31, 0x307841303638090962626f7009232059492053594c4c41424c452042424f50),
  (31, 0x30784130363909096262657809232059492053594c4c41424c452042424558),
  (29, 0x307841303641090962626509232059492053594c4c41424c4520424245),
  (31, 0x30784130364209096262657009232059492053594c4c41424c452042424550),
  (31, 0x30784130364309096262757409232059492053594c4c41424c452042425554),
  (31, 0x30784130364409096262757809232059492053594c4c41424c452042425558),
  (29, 0x307841303645090962627509232059492053594c4c41424c4520424255),
  (31, 0x30784130364609096262757009232059492053594c4c41424c452042425550),
  (0, 0x0),
  (33, 0x3078413037300909626275727809232059492053594c4c41424c45204242555258),
  (31, 0x30784130373109096262757209232059492053594c4c41424c452042425552),
  (31, 0x30784130373209096262797409232059492053594c4c41424c452042425954),
  (31, 0x30784130373309096262797809232059492053594c4c41424c452042425958),
  (29, 0x307841303734090962627909232059492053594c4c41424c4520424259),
  (31, 0x30784130373509096262797009232059492053594c4c41424c452042425950),
  (31, 0x30784130373609096e62697409232059492053594c4c41424c45204e424954),
  (31, 0x30784130373709096e62697809232059492053594c4c41424c45204e424958),
  (29, 0x30784130373809096e626909232059492053594c4c41424c45204e4249),
  (31, 0x30784130373909096e62697009232059492053594c4c41424c45204e424950),
  (33, 0x30784130374109096e6269657809232059492053594c4c41424c45204e42494558),
  (31, 0x30784130374209096e62696509232059492053594c4c41424c45204e424945),
  (33, 0x30784130374309096e6269657009232059492053594c4c41424c45204e42494550),
  (31, 0x30784130374409096e62617409232059492053594c4c41424c45204e424154),
  (31, 0x30784130374509096e62617809232059492053594c4c41424c45204e424158),
  (29, 0x30784130374609096e626109232059492053594c4c41424c45204e4241),
  (0, 0x0),
  (31, 0x30784130383009096e62617009232059492053594c4c41424c45204e424150),
  (31, 0x30784130383109096e626f7409232059492053594c4c41424c45204e424f54),
  (31, 0x30784130383209096e626f7809232059492053594c4c41424c45204e424f58),
  (29, 0x30784130383309096e626f09232059492053594c4c41424c45204e424f),
  (31, 0x30784130383409096e626f7009232059492053594c4c41424c45204e424f50),
  (31, 0x30784130383509096e62757409232059492053594c4c41424c45204e425554),
  (31, 0x30784130383609096e62757809232059492053594c4c41424c45204e425558),
  (29, 0x30784130383709096e627509232059492053594c4c41424c45204e4255),
  (31, 0x30784130383809096e62757009232059492053594c4c41424c45204e425550),
  (33, 0x30784130383909096e6275727809232059492053594c4c41424c45204e42555258),
  (31, 0x30784130384109096e62757209232059492053594c4c41424c45204e425552),
  (31, 0x30784130384209096e62797409232059492053594c4c41424c45204e425954),
  (31, 0x30784130384309096e62797809232059492053594c4c41424c45204e425958),
  (29, 0x30784130384409096e627909232059492053594c4c41424c45204e4259),
  (31, 0x30784130384509096e62797009232059492053594c4c41424c45204e425950),
  (33, 0x30784130384609096e6279727809232059492053594c4c41424c45204e42595258),
  (0, 0x0),
  (31, 0x30784130393009096e62797209232059492053594c4c41424c45204e425952),
  (31, 0x3078413039310909686d697409232059492053594c4c41424c4520484d4954),
  (31, 0x3078413039320909686d697809232059492053594c4c41424c4520484d4958),
  (29, 0x3078413039330909686d6909232059492053594c4c41424c4520484d49),
  (31, 0x3078413039340909686d697009232059492053594c4c41424c4520484d4950),
  (33, 0x3078413039350909686d69657809232059492053594c4c41424c4520484d494558),
  (31, 0x3078413039360909686d696509232059492053594c4c41424c4520484d4945),
  (33, 0x3078413039370909686d69657009232059492053594c4c41424c4520484d494550),
  (31, 0x3078413039380909686d617409232059492053594c4c41424c4520484d4154),
  (31, 0x3078413039390909686d617809232059492053594c4c41424c4520484d4158),
  (29, 0x3078413039410909686d6109232059492053594c4c41424c4520484d41),
  (31, 0x3078413039420909686d617009232059492053594c4c41424c4520484d4150),
  (33, 0x3078413039430909686d756f7809232059492053594c4c41424c4520484d554f58),
  (31, 0x3078413039440909686d756f09232059492053594c4c41424c4520484d554f),
  (33, 0x3078413039450909686d756f7009232059492053594c4c41424c4520484d554f50)]

/-- Lines 7219-7318 of table/legacy/unidecode.tbl. -/
def legacy_unidecode_74 : List (Nat × Nat) := [
  (31, 0x3078413039460909686d6f7409232059492053594c4c41424c4520484d4f54),
  (0, 0x0),
  (31, 0x3078413041300909686d6f7809232059492053594c4c41424c4520484d4f58),
  (29, 0x3078413041310909686d6f09232059492053594c4c41424c4520484d4f),
  (31, 0x3078413041320909686d6f7009232059492053594c4c41424c4520484d4f50),
  (31, 0x3078413041330909686d757409232059492053594c4c41424c4520484d5554),
  (31, 0x3078413041340909686d757809232059492053594c4c41424c4520484d5558),
  (29, 0x3078413041350909686d7509232059492053594c4c41424c4520484d55),
  (31, 0x3078413041360909686d757009232059492053594c4c41424c4520484d5550),
  (33, 0x3078413041370909686d75727809232059492053594c4c41424c4520484d555258),
  (31, 0x3078413041380909686d757209232059492053594c4c41424c4520484d5552),
  (31, 0x3078413041390909686d797809232059492053594c4c41424c4520484d5958),
  (29, 0x3078413041410909686d7909232059492053594c4c41424c4520484d59),
  (31, 0x3078413041420909686d797009232059492053594c4c41424c4520484d5950),
  (33, 0x3078413041430909686d79727809232059492053594c4c41424c4520484d595258),
  (31, 0x3078413041440909686d797209232059492053594c4c41424c4520484d5952),
  (29, 0x30784130414509096d697409232059492053594c4c41424c45204d4954),
  (29, 0x30784130414609096d697809232059492053594c4c41424c45204d4958),
  (0, 0x0),
  (27, 0x30784130423009096d6909232059492053594c4c41424c45204d49),
  (29, 0x30784130423109096d697009232059492053594c4c41424c45204d4950),
  (31, 0x30784130423209096d69657809232059492053594c4c41424c45204d494558),
  (29, 0x30784130423309096d696509232059492053594c4c41424c45204d4945),
  (31, 0x30784130423409096d69657009232059492053594c4c41424c45204d494550),
  (29, 0x30784130423509096d617409232059492053594c4c41424c45204d4154),
  (29, 0x30784130423609096d617809232059492053594c4c41424c45204d4158),
  (27, 0x30784130423709096d6109232059492053594c4c41424c45204d41),
  (29, 0x30784130423809096d617009232059492053594c4c41424c45204d4150),
  (31, 0x30784130423909096d756f7409232059492053594c4c41424c45204d554f54),
  (31, 0x30784130424109096d756f7809232059492053594c4c41424c45204d554f58),
  (29, 0x30784130424209096d756f09232059492053594c4c41424c45204d554f),
  (31, 0x30784130424309096d756f7009232059492053594c4c41424c45204d554f50),
  (29, 0x30784130424409096d6f7409232059492053594c4c41424c45204d4f54),
  (29, 0x30784130424509096d6f7809232059492053594c4c41424c45204d4f58),
  (27, 0x30784130424609096d6f09232059492053594c4c41424c45204d4f),
  (0, 0x0),
  (29, 0x30784130433009096d6f7009232059492053594c4c41424c45204d4f50),
  (29, 0x30784130433109096d657809232059492053594c4c41424c45204d4558),
  (27, 0x30784130433209096d6509232059492053594c4c41424c45204d45),
  (29, 0x30784130433309096d757409232059492053594c4c41424c45204d5554),
  (29, 0x30784130433409096d757809232059492053594c4c41424c45204d5558),
  (27, 0x30784130433509096d7509232059492053594c4c41424c45204d55),
  (29, 0x30784130433609096d757009232059492053594c4c41424c45204d5550),
  (31, 0x30784130433709096d75727809232059492053594c4c41424c45204d555258),
  (29, 0x30784130433809096d757209232059492053594c4c41424c45204d5552),
  (29, 0x30784130433909096d797409232059492053594c4c41424c45204d5954),
  (29, 0x30784130434109096d797809232059492053594c4c41424c45204d5958),
  (27, 0x30784130434209096d7909232059492053594c4c41424c45204d59),
  (29, 0x30784130434309096d797009232059492053594c4c41424c45204d5950),
  (29, 0x307841304344090966697409232059492053594c4c41424c4520464954),
  (29, 0x307841304345090966697809232059492053594c4c41424c4520464958),
  (27, 0x3078413043460909666909232059492053594c4c41424c45204649),
  (0, 0x0),
  (29, 0x307841304430090966697009232059492053594c4c41424c4520464950),
  (29, 0x307841304431090966617409232059492053594c4c41424c4520464154),
  (29, 0x307841304432090966617809232059492053594c4c41424c4520464158),
  (27, 0x3078413044330909666109232059492053594c4c41424c45204641),
  (29, 0x307841304434090966617009232059492053594c4c41424c4520464150),
  (29, 0x3078413044350909666f7809232059492053594c4c41424c4520464f58),
  (27, 0x3078413044360909666f09232059492053594c4c41424c4520464f),
  (29, 0x3078413044370909666f7009232059492053594c4c41424c4520464f50),
  (29, 0x307841304438090966757409232059492053594c4c41424c4520465554),
  (29, 0x307841304439090966757809232059492053594c4c41424c4520465558),
  (27, 0x3078413044410909667509232059492053594c4c41424c45204655),
  (29, 0x307841304442090966757009232059492053594c4c41424c4520465550),
  (31, 0x30784130444309096675727809232059492053594c4c41424c452046555258),
  (29, 0x307841304444090966757209232059492053594c4c41424c4520465552),
  (29, 0x307841304445090966797409232059492053594c4c41424c4520465954),
  (29, 0x307841304446090966797809232059492053594c4c41424c4520465958),
  (0, 0x0),
  (27, 0x3078413045300909667909232059492053594c4c41424c45204659),
  (29, 0x307841304531090966797009232059492053594c4c41424c4520465950),
  (29, 0x307841304532090976697409232059492053594c4c41424c4520564954),
  (29, 0x307841304533090976697809232059492053594c4c41424c4520564958),
  (27, 0x3078413045340909766909232059492053594c4c41424c45205649),
  (29, 0x307841304535090976697009232059492053594c4c41424c4520564950),
  (31, 0x30784130453609097669657409232059492053594c4c41424c452056494554),
  (31, 0x30784130453709097669657809232059492053594c4c41424c452056494558),
  (29, 0x307841304538090976696509232059492053594c4c41424c4520564945),
  (31, 0x30784130453909097669657009232059492053594c4c41424c452056494550),
  (29, 0x307841304541090976617409232059492053594c4c41424c4520564154),
  (29, 0x307841304542090976617809232059492053594c4c41424c4520564158),
  (27, 0x3078413045430909766109232059492053594c4c41424c45205641),
  (29, 0x307841304544090976617009232059492053594c4c41424c4520564150),
  (29, 0x3078413045450909766f7409232059492053594c4c41424c4520564f54),
  (29, 0x3078413045460909766f7809232059492053594c4c41424c4520564f58),
  (0, 0x0),
  (27, 0x3078413046300909766f09232059492053594c4c41424c4520564f),
  (29, 0x3078413046310909766f7009232059492053594c4c41424c4520564f50),
  (29, 0x307841304632090976657809232059492053594c4c41424c4520564558),
  (29, 0x307841304633090976657009232059492053594c4c41424c4520564550),
  (29, 0x307841304634090976757409232059492053594c4c41424c4520565554),
  (29, 0x307841304635090976757809232059492053594c4c41424c4520565558),
  (27, 0x3078413046360909767509232059492053594c4c41424c45205655),
  (29, 0x307841304637090976757009232059492053594c4c41424c4520565550),
  (31, 0x30784130463809097675727809232059492053594c4c41424c452056555258),
  (29, 0x307841304639090976757209232059492053594c4c41424c4520565552),
  (29, 0x307841304641090976797409232059492053594c4c41424c4520565954),
  (29, 0x307841304642090976797809232059492053594c4c41424c4520565958),
  (27, 0x3078413046430909767909232059492053594c4c41424c45205659)]

/-- Lines 7319-7418 of table/legacy/unidecode.tbl. -/
def legacy_unidecode_75 : List (Nat × Nat) := [
  (29, 0x307841304644090976797009232059492053594c4c41424c4520565950),
  (31, 0x30784130464509097679727809232059492053594c4c41424c452056595258),
  (29, 0x307841304646090976797209232059492053594c4c41424c4520565952),
  (0, 0x0),
  (1, 0x23),
  (29, 0x2320436861726163746572732030784131303020746f20307841314646),
  (1, 0x23),
  (0, 0x0),
  (29, 0x307841313030090964697409232059492053594c4c41424c4520444954),
  (29, 0x307841313031090964697809232059492053594c4c41424c4520444958),
  (27, 0x3078413130320909646909232059492053594c4c41424c45204449),
  (29, 0x307841313033090964697009232059492053594c4c41424c4520444950),
  (31, 0x30784131303409096469657809232059492053594c4c41424c452044494558),
  (29, 0x307841313035090964696509232059492053594c4c41424c4520444945),
  (31, 0x30784131303609096469657009232059492053594c4c41424c452044494550),
  (29, 0x307841313037090964617409232059492053594c4c41424c4520444154),
  (29, 0x307841313038090964617809232059492053594c4c41424c4520444158),
  (27, 0x3078413130390909646109232059492053594c4c41424c45204441),
  (29, 0x307841313041090964617009232059492053594c4c41424c4520444150),
  (31, 0x307841313042090964756f7809232059492053594c4c41424c452044554f58),
  (29, 0x307841313043090964756f09232059492053594c4c41424c452044554f),
  (29, 0x3078413130440909646f7409232059492053594c4c41424c4520444f54),
  (29, 0x3078413130450909646f7809232059492053594c4c41424c4520444f58),
  (27, 0x3078413130460909646f09232059492053594c4c41424c4520444f),
  (0, 0x0),
  (29, 0x3078413131300909646f7009232059492053594c4c41424c4520444f50),
  (29, 0x307841313131090964657809232059492053594c4c41424c4520444558),
  (27, 0x3078413131320909646509232059492053594c4c41424c45204445),
  (29, 0x307841313133090964657009232059492053594c4c41424c4520444550),
  (29, 0x307841313134090964757409232059492053594c4c41424c4520445554),
  (29, 0x307841313135090964757809232059492053594c4c41424c4520445558),
  (27, 0x3078413131360909647509232059492053594c4c41424c45204455),
  (29, 0x307841313137090964757009232059492053594c4c41424c4520445550),
  (31, 0x30784131313809096475727809232059492053594c4c41424c452044555258),
  (29, 0x307841313139090964757209232059492053594c4c41424c4520445552),
  (29, 0x307841313141090974697409232059492053594c4c41424c4520544954),
  (29, 0x307841313142090974697809232059492053594c4c41424c4520544958),
  (27, 0x3078413131430909746909232059492053594c4c41424c45205449),
  (29, 0x307841313144090974697009232059492053594c4c41424c4520544950),
  (31, 0x30784131314509097469657809232059492053594c4c41424c452054494558),
  (29, 0x307841313146090974696509232059492053594c4c41424c4520544945),
  (0, 0x0),
  (31, 0x30784131323009097469657009232059492053594c4c41424c452054494550),
  (29, 0x307841313231090974617409232059492053594c4c41424c4520544154),
  (29, 0x307841313232090974617809232059492053594c4c41424c4520544158),
  (27, 0x3078413132330909746109232059492053594c4c41424c45205441),
  (29, 0x307841313234090974617009232059492053594c4c41424c4520544150),
  (31, 0x307841313235090974756f7409232059492053594c4c41424c452054554f54),
  (31, 0x307841313236090974756f7809232059492053594c4c41424c452054554f58),
  (29, 0x307841313237090974756f09232059492053594c4c41424c452054554f),
  (31, 0x307841313238090974756f7009232059492053594c4c41424c452054554f50),
  (29, 0x3078413132390909746f7409232059492053594c4c41424c4520544f54),
  (29, 0x3078413132410909746f7809232059492053594c4c41424c4520544f58),
  (27, 0x3078413132420909746f09232059492053594c4c41424c4520544f),
  (29, 0x3078413132430909746f7009232059492053594c4c41424c4520544f50),
  (29, 0x307841313244090974657809232059492053594c4c41424c4520544558),
  (27, 0x3078413132450909746509232059492053594c4c41424c45205445),
  (29, 0x307841313246090974657009232059492053594c4c41424c4520544550),
  (0, 0x0),
  (29, 0x307841313330090974757409232059492053594c4c41424c4520545554),
  (29, 0x307841313331090974757809232059492053594c4c41424c4520545558),
  (27, 0x3078413133320909747509232059492053594c4c41424c45205455),
  (29, 0x307841313333090974757009232059492053594c4c41424c4520545550),
  (31, 0x30784131333409097475727809232059492053594c4c41424c452054555258),
  (29, 0x307841313335090974757209232059492053594c4c41424c4520545552),
  (31, 0x30784131333609096464697409232059492053594c4c41424c452044444954),
  (31, 0x30784131333709096464697809232059492053594c4c41424c452044444958),
  (29, 0x307841313338090964646909232059492053594c4c41424c4520444449),
  (31, 0x30784131333909096464697009232059492053594c4c41424c452044444950),
  (33, 0x3078413133410909646469657809232059492053594c4c41424c45204444494558),
  (31, 0x30784131334209096464696509232059492053594c4c41424c452044444945),
  (33, 0x3078413133430909646469657009232059492053594c4c41424c45204444494550),
  (31, 0x30784131334409096464617409232059492053594c4c41424c452044444154),
  (31, 0x30784131334509096464617809232059492053594c4c41424c452044444158),
  (29, 0x307841313346090964646109232059492053594c4c41424c4520444441),
  (0, 0x0),
  (31, 0x30784131343009096464617009232059492053594c4c41424c452044444150),
  (33, 0x30784131343109096464756f7809232059492053594c4c41424c45204444554f58),
  (31, 0x30784131343209096464756f09232059492053594c4c41424c45204444554f),
  (33, 0x30784131343309096464756f7009232059492053594c4c41424c45204444554f50),
  (31, 0x307841313434090964646f7409232059492053594c4c41424c452044444f54),
  (31, 0x307841313435090964646f7809232059492053594c4c41424c452044444f58),
  (29, 0x307841313436090964646f09232059492053594c4c41424c452044444f),
  (31, 0x307841313437090964646f7009232059492053594c4c41424c452044444f50),
  (31, 0x30784131343809096464657809232059492053594c4c41424c452044444558),
  (29, 0x307841313439090964646509232059492053594c4c41424c4520444445),
  (31, 0x30784131344109096464657009232059492053594c4c41424c452044444550),
  (31, 0x30784131344209096464757409232059492053594c4c41424c452044445554),
  (31, 0x30784131344309096464757809232059492053594c4c41424c452044445558),
  (29, 0x307841313444090964647509232059492053594c4c41424c4520444455),
  (31, 0x30784131344509096464757009232059492053594c4c41424c452044445550),
  (33, 0x3078413134460909646475727809232059492053594c4c41424c45204444555258),
  (0, 0x0),
  (31, 0x30784131353009096464757209232059492053594c4c41424c452044445552),
  (31, 0x30784131353109096e64697409232059492053594c4c41424c45204e444954),
  (31, 0x30784131353209096e64697809232059492053594c4c41424c45204e444958),
  (29, 0x30784131353309096e646909232059492053594c4c41424c45204e4449),
  (31, 0x30784131353409096e64697009232059492053594c4c41424c45204e444950),
  (33, 0x30784131353509096e6469657809232059492053594c4c41424c45204e44494558),
  (31, 0x30784131353609096e64696509232059492053594c4c41424c45204e444945)]

/-- Lines 7419-7518 of table/legacy/unidecode.tbl. -/
def legacy_unidecode_76 : List (Nat × Nat) := [
  (31, 0x30784131353709096e64617409232059492053594c4c41424c45204e444154),
  (31, 0x30784131353809096e64617809232059492053594c4c41424c45204e444158),
  (29, 0x30784131353909096e646109232059492053594c4c41424c45204e4441),
  (31, 0x30784131354109096e64617009232059492053594c4c41424c45204e444150),
  (31, 0x30784131354209096e646f7409232059492053594c4c41424c45204e444f54),
  (31, 0x30784131354309096e646f7809232059492053594c4c41424c45204e444f58),
  (29, 0x30784131354409096e646f09232059492053594c4c41424c45204e444f),
  (31, 0x30784131354509096e646f7009232059492053594c4c41424c45204e444f50),
  (31, 0x30784131354609096e64657809232059492053594c4c41424c45204e444558),
  (0, 0x0),
  (29, 0x30784131363009096e646509232059492053594c4c41424c45204e4445),
  (31, 0x30784131363109096e64657009232059492053594c4c41424c45204e444550),
  (31, 0x30784131363209096e64757409232059492053594c4c41424c45204e445554),
  (31, 0x30784131363309096e64757809232059492053594c4c41424c45204e445558),
  (29, 0x30784131363409096e647509232059492053594c4c41424c45204e4455),
  (31, 0x30784131363509096e64757009232059492053594c4c41424c45204e445550),
  (33, 0x30784131363609096e6475727809232059492053594c4c41424c45204e44555258),
  (31, 0x30784131363709096e64757209232059492053594c4c41424c45204e445552),
  (31, 0x3078413136380909686e697409232059492053594c4c41424c4520484e4954),
  (31, 0x3078413136390909686e697809232059492053594c4c41424c4520484e4958),
  (29, 0x3078413136410909686e6909232059492053594c4c41424c4520484e49),
  (31, 0x3078413136420909686e697009232059492053594c4c41424c4520484e4950),
  (33, 0x3078413136430909686e69657409232059492053594c4c41424c4520484e494554),
  (33, 0x3078413136440909686e69657809232059492053594c4c41424c4520484e494558),
  (31, 0x3078413136450909686e696509232059492053594c4c41424c4520484e4945),
  (33, 0x3078413136460909686e69657009232059492053594c4c41424c4520484e494550),
  (0, 0x0),
  (31, 0x3078413137300909686e617409232059492053594c4c41424c4520484e4154),
  (31, 0x3078413137310909686e617809232059492053594c4c41424c4520484e4158),
  (29, 0x3078413137320909686e6109232059492053594c4c41424c4520484e41),
  (31, 0x3078413137330909686e617009232059492053594c4c41424c4520484e4150),
  (33, 0x3078413137340909686e756f7809232059492053594c4c41424c4520484e554f58),
  (31, 0x3078413137350909686e756f09232059492053594c4c41424c4520484e554f),
  (31, 0x3078413137360909686e6f7409232059492053594c4c41424c4520484e4f54),
  (31, 0x3078413137370909686e6f7809232059492053594c4c41424c4520484e4f58),
  (31, 0x3078413137380909686e6f7009232059492053594c4c41424c4520484e4f50),
  (31, 0x3078413137390909686e657809232059492053594c4c41424c4520484e4558),
  (29, 0x3078413137410909686e6509232059492053594c4c41424c4520484e45),
  (31, 0x3078413137420909686e657009232059492053594c4c41424c4520484e4550),
  (31, 0x3078413137430909686e757409232059492053594c4c41424c4520484e5554),
  (29, 0x30784131374409096e697409232059492053594c4c41424c45204e4954),
  (29, 0x30784131374509096e697809232059492053594c4c41424c45204e4958),
  (27, 0x30784131374609096e6909232059492053594c4c41424c45204e49),
  (0, 0x0),
  (29, 0x30784131383009096e697009232059492053594c4c41424c45204e4950),
  (31, 0x30784131383109096e69657809232059492053594c4c41424c45204e494558),
  (29, 0x30784131383209096e696509232059492053594c4c41424c45204e4945),
  (31, 0x30784131383309096e69657009232059492053594c4c41424c45204e494550),
  (29, 0x30784131383409096e617809232059492053594c4c41424c45204e4158),
  (27, 0x30784131383509096e6109232059492053594c4c41424c45204e41),
  (29, 0x30784131383609096e617009232059492053594c4c41424c45204e4150),
  (31, 0x30784131383709096e756f7809232059492053594c4c41424c45204e554f58),
  (29, 0x30784131383809096e756f09232059492053594c4c41424c45204e554f),
  (31, 0x30784131383909096e756f7009232059492053594c4c41424c45204e554f50),
  (29, 0x30784131384109096e6f7409232059492053594c4c41424c45204e4f54),
  (29, 0x30784131384209096e6f7809232059492053594c4c41424c45204e4f58),
  (27, 0x30784131384309096e6f09232059492053594c4c41424c45204e4f),
  (29, 0x30784131384409096e6f7009232059492053594c4c41424c45204e4f50),
  (29, 0x30784131384509096e657809232059492053594c4c41424c45204e4558),
  (27, 0x30784131384609096e6509232059492053594c4c41424c45204e45),
  (0, 0x0),
  (29, 0x30784131393009096e657009232059492053594c4c41424c45204e4550),
  (29, 0x30784131393109096e757409232059492053594c4c41424c45204e5554),
  (29, 0x30784131393209096e757809232059492053594c4c41424c45204e5558),
  (27, 0x30784131393309096e7509232059492053594c4c41424c45204e55),
  (29, 0x30784131393409096e757009232059492053594c4c41424c45204e5550),
  (31, 0x30784131393509096e75727809232059492053594c4c41424c45204e555258),
  (29, 0x30784131393609096e757209232059492053594c4c41424c45204e5552),
  (31, 0x3078413139370909686c697409232059492053594c4c41424c4520484c4954),
  (31, 0x3078413139380909686c697809232059492053594c4c41424c4520484c4958),
  (29, 0x3078413139390909686c6909232059492053594c4c41424c4520484c49),
  (31, 0x3078413139410909686c697009232059492053594c4c41424c4520484c4950),
  (33, 0x3078413139420909686c69657809232059492053594c4c41424c4520484c494558),
  (31, 0x3078413139430909686c696509232059492053594c4c41424c4520484c4945),
  (33, 0x3078413139440909686c69657009232059492053594c4c41424c4520484c494550),
  (31, 0x3078413139450909686c617409232059492053594c4c41424c4520484c4154),
  (31, 0x3078413139460909686c617809232059492053594c4c41424c4520484c4158),
  (0, 0x0),
  (29, 0x3078413141300909686c6109232059492053594c4c41424c4520484c41),
  (31, 0x3078413141310909686c617009232059492053594c4c41424c4520484c4150),
  (33, 0x3078413141320909686c756f7809232059492053594c4c41424c4520484c554f58),
  (31, 0x3078413141330909686c756f09232059492053594c4c41424c4520484c554f),
  (33, 0x3078413141340909686c756f7009232059492053594c4c41424c4520484c554f50),
  (31, 0x3078413141350909686c6f7809232059492053594c4c41424c4520484c4f58),
  (29, 0x3078413141360909686c6f09232059492053594c4c41424c4520484c4f),
  (31, 0x3078413141370909686c6f7009232059492053594c4c41424c4520484c4f50),
  (31, 0x3078413141380909686c657809232059492053594c4c41424c4520484c4558),
  (29, 0x3078413141390909686c6509232059492053594c4c41424c4520484c45),
  (31, 0x3078413141410909686c657009232059492053594c4c41424c4520484c4550),
  (31, 0x3078413141420909686c757409232059492053594c4c41424c4520484c5554),
  (31, 0x3078413141430909686c757809232059492053594c4c41424c4520484c5558),
  (29, 0x3078413141440909686c7509232059492053594c4c41424c4520484c55),
  (31, 0x3078413141450909686c757009232059492053594c4c41424c4520484c5550),
  (33, 0x3078413141460909686c75727809232059492053594c4c41424c4520484c555258),
  (0, 0x0),
  (31, 0x3078413142300909686c757209232059492053594c4c41424c4520484c5552),
  (31, 0x3078413142310909686c797409232059492053594c4c41424c4520484c5954),
  (31, 0x3078413142320909686c797809232059492053594c4c41424c4520484c5958),
  (29, 0x3078413142330909686c7909232059492053594c4c41424c4520484c59),
  (31, 0x3078413142340909686c797009232059492053594c4c41424c4520484c5950)]

/-- Lines 7519-7618 of table/legacy/unidecode.tbl. -/
def legacy_unidecode_77 : List (Nat × Nat) := [
  (33, 0x3078413142350909686c79727809232059492053594c4c41424c4520484c595258),
  (31, 0x3078413142360909686c797209232059492053594c4c41424c4520484c5952),
  (29, 0x30784131423709096c697409232059492053594c4c41424c45204c4954),
  (29, 0x30784131423809096c697809232059492053594c4c41424c45204c4958),
  (27, 0x30784131423909096c6909232059492053594c4c41424c45204c49),
  (29, 0x30784131424109096c697009232059492053594c4c41424c45204c4950),
  (31, 0x30784131424209096c69657409232059492053594c4c41424c45204c494554),
  (31, 0x30784131424309096c69657809232059492053594c4c41424c45204c494558),
  (29, 0x30784131424409096c696509232059492053594c4c41424c45204c4945),
  (31, 0x30784131424509096c69657009232059492053594c4c41424c45204c494550),
  (29, 0x30784131424609096c617409232059492053594c4c41424c45204c4154),
  (0, 0x0),
  (29, 0x30784131433009096c617809232059492053594c4c41424c45204c4158),
  (27, 0x30784131433109096c6109232059492053594c4c41424c45204c41),
  (29, 0x30784131433209096c617009232059492053594c4c41424c45204c4150),
  (31, 0x30784131433309096c756f7409232059492053594c4c41424c45204c554f54),
  (31, 0x30784131433409096c756f7809232059492053594c4c41424c45204c554f58),
  (29, 0x30784131433509096c756f09232059492053594c4c41424c45204c554f),
  (31, 0x30784131433609096c756f7009232059492053594c4c41424c45204c554f50),
  (29, 0x30784131433709096c6f7409232059492053594c4c41424c45204c4f54),
  (29, 0x30784131433809096c6f7809232059492053594c4c41424c45204c4f58),
  (27, 0x30784131433909096c6f09232059492053594c4c41424c45204c4f),
  (29, 0x30784131434109096c6f7009232059492053594c4c41424c45204c4f50),
  (29, 0x30784131434209096c657809232059492053594c4c41424c45204c4558),
  (27, 0x30784131434309096c6509232059492053594c4c41424c45204c45),
  (29, 0x30784131434409096c657009232059492053594c4c41424c45204c4550),
  (29, 0x30784131434509096c757409232059492053594c4c41424c45204c5554),
  (29, 0x30784131434609096c757809232059492053594c4c41424c45204c5558),
  (0, 0x0),
  (27, 0x30784131443009096c7509232059492053594c4c41424c45204c55),
  (29, 0x30784131443109096c757009232059492053594c4c41424c45204c5550),
  (31, 0x30784131443209096c75727809232059492053594c4c41424c45204c555258),
  (29, 0x30784131443309096c757209232059492053594c4c41424c45204c5552),
  (29, 0x30784131443409096c797409232059492053594c4c41424c45204c5954),
  (29, 0x30784131443509096c797809232059492053594c4c41424c45204c5958),
  (27, 0x30784131443609096c7909232059492053594c4c41424c45204c59),
  (29, 0x30784131443709096c797009232059492053594c4c41424c45204c5950),
  (31, 0x30784131443809096c79727809232059492053594c4c41424c45204c595258),
  (29, 0x30784131443909096c797209232059492053594c4c41424c45204c5952),
  (29, 0x307841314441090967697409232059492053594c4c41424c4520474954),
  (29, 0x307841314442090967697809232059492053594c4c41424c4520474958),
  (27, 0x3078413144430909676909232059492053594c4c41424c45204749),
  (29, 0x307841314444090967697009232059492053594c4c41424c4520474950),
  (31, 0x30784131444509096769657409232059492053594c4c41424c452047494554),
  (31, 0x30784131444609096769657809232059492053594c4c41424c452047494558),
  (0, 0x0),
  (29, 0x307841314530090967696509232059492053594c4c41424c4520474945),
  (31, 0x30784131453109096769657009232059492053594c4c41424c452047494550),
  (29, 0x307841314532090967617409232059492053594c4c41424c4520474154),
  (29, 0x307841314533090967617809232059492053594c4c41424c4520474158),
  (27, 0x3078413145340909676109232059492053594c4c41424c45204741),
  (29, 0x307841314535090967617009232059492053594c4c41424c4520474150),
  (31, 0x307841314536090967756f7409232059492053594c4c41424c452047554f54),
  (31, 0x307841314537090967756f7809232059492053594c4c41424c452047554f58),
  (29, 0x307841314538090967756f09232059492053594c4c41424c452047554f),
  (31, 0x307841314539090967756f7009232059492053594c4c41424c452047554f50),
  (29, 0x3078413145410909676f7409232059492053594c4c41424c4520474f54),
  (29, 0x3078413145420909676f7809232059492053594c4c41424c4520474f58),
  (27, 0x3078413145430909676f09232059492053594c4c41424c4520474f),
  (29, 0x3078413145440909676f7009232059492053594c4c41424c4520474f50),
  (29, 0x307841314545090967657409232059492053594c4c41424c4520474554),
  (29, 0x307841314546090967657809232059492053594c4c41424c4520474558),
  (0, 0x0),
  (27, 0x3078413146300909676509232059492053594c4c41424c45204745),
  (29, 0x307841314631090967657009232059492053594c4c41424c4520474550),
  (29, 0x307841314632090967757409232059492053594c4c41424c4520475554),
  (29, 0x307841314633090967757809232059492053594c4c41424c4520475558),
  (27, 0x3078413146340909677509232059492053594c4c41424c45204755),
  (29, 0x307841314635090967757009232059492053594c4c41424c4520475550),
  (31, 0x30784131463609096775727809232059492053594c4c41424c452047555258),
  (29, 0x307841314637090967757209232059492053594c4c41424c4520475552),
  (29, 0x30784131463809096b697409232059492053594c4c41424c45204b4954),
  (29, 0x30784131463909096b697809232059492053594c4c41424c45204b4958),
  (27, 0x30784131464109096b6909232059492053594c4c41424c45204b49),
  (29, 0x30784131464209096b697009232059492053594c4c41424c45204b4950),
  (31, 0x30784131464309096b69657809232059492053594c4c41424c45204b494558),
  (29, 0x30784131464409096b696509232059492053594c4c41424c45204b4945),
  (31, 0x30784131464509096b69657009232059492053594c4c41424c45204b494550),
  (29, 0x30784131464609096b617409232059492053594c4c41424c45204b4154),
  (0, 0x0),
  (1, 0x23),
  (29, 0x2320436861726163746572732030784132303020746f20307841324646),
  (1, 0x23),
  (0, 0x0),
  (29, 0x30784132303009096b617809232059492053594c4c41424c45204b4158),
  (27, 0x30784132303109096b6109232059492053594c4c41424c45204b41),
  (29, 0x30784132303209096b617009232059492053594c4c41424c45204b4150),
  (31, 0x30784132303309096b756f7809232059492053594c4c41424c45204b554f58),
  (29, 0x30784132303409096b756f09232059492053594c4c41424c45204b554f),
  (31, 0x30784132303509096b756f7009232059492053594c4c41424c45204b554f50),
  (29, 0x30784132303609096b6f7409232059492053594c4c41424c45204b4f54),
  (29, 0x30784132303709096b6f7809232059492053594c4c41424c45204b4f58),
  (27, 0x30784132303809096b6f09232059492053594c4c41424c45204b4f),
  (29, 0x30784132303909096b6f7009232059492053594c4c41424c45204b4f50),
  (29, 0x30784132304109096b657409232059492053594c4c41424c45204b4554),
  (29, 0x30784132304209096b657809232059492053594c4c41424c45204b4558),
  (27, 0x30784132304309096b6509232059492053594c4c41424c45204b45),
  (29, 0x30784132304409096b657009232059492053594c4c41424c45204b4550),
  (29, 0x30784132304509096b757409232059492053594c4c41424c45204b5554),
  (29, 0x30784132304609096b757809232059492053594c4c41424c45204b5558)]

/-- Lines 7619-7718 of table/legacy/unidecode.tbl. -/
def legacy_unidecode_78 : List (Nat × Nat) := [
  (0, 0x0),
  (27, 0x30784132313009096b7509232059492053594c4c41424c45204b55),
  (29, 0x30784132313109096b757009232059492053594c4c41424c45204b5550),
  (31, 0x30784132313209096b75727809232059492053594c4c41424c45204b555258),
  (29, 0x30784132313309096b757209232059492053594c4c41424c45204b5552),
  (31, 0x30784132313409096767697409232059492053594c4c41424c452047474954),
  (31, 0x30784132313509096767697809232059492053594c4c41424c452047474958),
  (29, 0x307841323136090967676909232059492053594c4c41424c4520474749),
  (33, 0x3078413231370909676769657809232059492053594c4c41424c45204747494558),
  (31, 0x30784132313809096767696509232059492053594c4c41424c452047474945),
  (33, 0x3078413231390909676769657009232059492053594c4c41424c45204747494550),
  (31, 0x30784132314109096767617409232059492053594c4c41424c452047474154),
  (31, 0x30784132314209096767617809232059492053594c4c41424c452047474158),
  (29, 0x307841323143090967676109232059492053594c4c41424c4520474741),
  (31, 0x30784132314409096767617009232059492053594c4c41424c452047474150),
  (33, 0x30784132314509096767756f7409232059492053594c4c41424c45204747554f54),
  (33, 0x30784132314609096767756f7809232059492053594c4c41424c45204747554f58),
  (0, 0x0),
  (31, 0x30784132323009096767756f09232059492053594c4c41424c45204747554f),
  (33, 0x30784132323109096767756f7009232059492053594c4c41424c45204747554f50),
  (31, 0x307841323232090967676f7409232059492053594c4c41424c452047474f54),
  (31, 0x307841323233090967676f7809232059492053594c4c41424c452047474f58),
  (29, 0x307841323234090967676f09232059492053594c4c41424c452047474f),
  (31, 0x307841323235090967676f7009232059492053594c4c41424c452047474f50),
  (31, 0x30784132323609096767657409232059492053594c4c41424c452047474554),
  (31, 0x30784132323709096767657809232059492053594c4c41424c452047474558),
  (29, 0x307841323238090967676509232059492053594c4c41424c4520474745),
  (31, 0x30784132323909096767657009232059492053594c4c41424c452047474550),
  (31, 0x30784132324109096767757409232059492053594c4c41424c452047475554),
  (31, 0x30784132324209096767757809232059492053594c4c41424c452047475558),
  (29, 0x307841323243090967677509232059492053594c4c41424c4520474755),
  (31, 0x30784132324409096767757009232059492053594c4c41424c452047475550),
  (33, 0x3078413232450909676775727809232059492053594c4c41424c45204747555258),
  (31, 0x30784132324609096767757209232059492053594c4c41424c452047475552),
  (0, 0x0),
  (33, 0x30784132333009096d6769657809232059492053594c4c41424c45204d47494558),
  (31, 0x30784132333109096d67696509232059492053594c4c41424c45204d474945),
  (31, 0x30784132333209096d67617409232059492053594c4c41424c45204d474154),
  (31, 0x30784132333309096d67617809232059492053594c4c41424c45204d474158),
  (29, 0x30784132333409096d676109232059492053594c4c41424c45204d4741),
  (31, 0x30784132333509096d67617009232059492053594c4c41424c45204d474150),
  (33, 0x30784132333609096d67756f7809232059492053594c4c41424c45204d47554f58),
  (31, 0x30784132333709096d67756f09232059492053594c4c41424c45204d47554f),
  (33, 0x30784132333809096d67756f7009232059492053594c4c41424c45204d47554f50),
  (31, 0x30784132333909096d676f7409232059492053594c4c41424c45204d474f54),
  (31, 0x30784132334109096d676f7809232059492053594c4c41424c45204d474f58),
  (29, 0x30784132334209096d676f09232059492053594c4c41424c45204d474f),
  (31, 0x30784132334309096d676f7009232059492053594c4c41424c45204d474f50),
  (31, 0x30784132334409096d67657809232059492053594c4c41424c45204d474558),
  (29, 0x30784132334509096d676509232059492053594c4c41424c45204d4745),
  (31, 0x30784132334609096d67657009232059492053594c4c41424c45204d474550),
  (0, 0x0),
  (31, 0x30784132343009096d67757409232059492053594c4c41424c45204d475554),
  (31, 0x30784132343109096d67757809232059492053594c4c41424c45204d475558),
  (29, 0x30784132343209096d677509232059492053594c4c41424c45204d4755),
  (31, 0x30784132343309096d67757009232059492053594c4c41424c45204d475550),
  (33, 0x30784132343409096d6775727809232059492053594c4c41424c45204d47555258),
  (31, 0x30784132343509096d67757209232059492053594c4c41424c45204d475552),
  (31, 0x30784132343609096878697409232059492053594c4c41424c452048584954),
  (31, 0x30784132343709096878697809232059492053594c4c41424c452048584958),
  (29, 0x307841323438090968786909232059492053594c4c41424c4520485849),
  (31, 0x30784132343909096878697009232059492053594c4c41424c452048584950),
  (33, 0x3078413234410909687869657409232059492053594c4c41424c45204858494554),
  (33, 0x3078413234420909687869657809232059492053594c4c41424c45204858494558),
  (31, 0x30784132344309096878696509232059492053594c4c41424c452048584945),
  (33, 0x3078413234440909687869657009232059492053594c4c41424c45204858494550),
  (31, 0x30784132344509096878617409232059492053594c4c41424c452048584154),
  (31, 0x30784132344609096878617809232059492053594c4c41424c452048584158),
  (0, 0x0),
  (29, 0x307841323530090968786109232059492053594c4c41424c4520485841),
  (31, 0x30784132353109096878617009232059492053594c4c41424c452048584150),
  (33, 0x30784132353209096878756f7409232059492053594c4c41424c45204858554f54),
  (33, 0x30784132353309096878756f7809232059492053594c4c41424c45204858554f58),
  (31, 0x30784132353409096878756f09232059492053594c4c41424c45204858554f),
  (33, 0x30784132353509096878756f7009232059492053594c4c41424c45204858554f50),
  (31, 0x307841323536090968786f7409232059492053594c4c41424c452048584f54),
  (31, 0x307841323537090968786f7809232059492053594c4c41424c452048584f58),
  (29, 0x307841323538090968786f09232059492053594c4c41424c452048584f),
  (31, 0x307841323539090968786f7009232059492053594c4c41424c452048584f50),
  (31, 0x30784132354109096878657809232059492053594c4c41424c452048584558),
  (29, 0x307841323542090968786509232059492053594c4c41424c4520485845),
  (31, 0x30784132354309096878657009232059492053594c4c41424c452048584550),
  (33, 0x30784132354409096e6769657809232059492053594c4c41424c45204e47494558),
  (31, 0x30784132354509096e67696509232059492053594c4c41424c45204e474945),
  (33, 0x30784132354609096e6769657009232059492053594c4c41424c45204e47494550),
  (0, 0x0),
  (31, 0x30784132363009096e67617409232059492053594c4c41424c45204e474154),
  (31, 0x30784132363109096e67617809232059492053594c4c41424c45204e474158),
  (29, 0x30784132363209096e676109232059492053594c4c41424c45204e4741),
  (31, 0x30784132363309096e67617009232059492053594c4c41424c45204e474150),
  (33, 0x30784132363409096e67756f7409232059492053594c4c41424c45204e47554f54),
  (33, 0x30784132363509096e67756f7809232059492053594c4c41424c45204e47554f58),
  (31, 0x30784132363609096e67756f09232059492053594c4c41424c45204e47554f),
  (31, 0x30784132363709096e676f7409232059492053594c4c41424c45204e474f54),
  (31, 0x30784132363809096e676f7809232059492053594c4c41424c45204e474f58),
  (29, 0x30784132363909096e676f09232059492053594c4c41424c45204e474f),
  (31, 0x30784132364109096e676f7009232059492053594c4c41424c45204e474f50),
  (31, 0x30784132364209096e67657809232059492053594c4c41424c45204e474558),
  (29, 0x30784132364309096e676509232059492053594c4c41424c45204e4745),
  (31, 0x30784132364409096e67657009232059492053594c4c41424c45204e474550)]

/-- Lines 7719-7818 of table/legacy/unidecode.tbl. -/
def legacy_unidecode_79 : List (Nat × Nat) := [
  (29, 0x307841323645090968697409232059492053594c4c41424c4520484954),
  (31, 0x30784132364609096869657809232059492053594c4c41424c452048494558),
  (0, 0x0),
  (29, 0x307841323730090968696509232059492053594c4c41424c4520484945),
  (29, 0x307841323731090968617409232059492053594c4c41424c4520484154),
  (29, 0x307841323732090968617809232059492053594c4c41424c4520484158),
  (27, 0x3078413237330909686109232059492053594c4c41424c45204841),
  (29, 0x307841323734090968617009232059492053594c4c41424c4520484150),
  (31, 0x307841323735090968756f7409232059492053594c4c41424c452048554f54),
  (31, 0x307841323736090968756f7809232059492053594c4c41424c452048554f58),
  (29, 0x307841323737090968756f09232059492053594c4c41424c452048554f),
  (31, 0x307841323738090968756f7009232059492053594c4c41424c452048554f50),
  (29, 0x3078413237390909686f7409232059492053594c4c41424c4520484f54),
  (29, 0x3078413237410909686f7809232059492053594c4c41424c4520484f58),
  (27, 0x3078413237420909686f09232059492053594c4c41424c4520484f),
  (29, 0x3078413237430909686f7009232059492053594c4c41424c4520484f50),
  (29, 0x307841323744090968657809232059492053594c4c41424c4520484558),
  (27, 0x3078413237450909686509232059492053594c4c41424c45204845),
  (29, 0x307841323746090968657009232059492053594c4c41424c4520484550),
  (0, 0x0),
  (29, 0x307841323830090977617409232059492053594c4c41424c4520574154),
  (29, 0x307841323831090977617809232059492053594c4c41424c4520574158),
  (27, 0x3078413238320909776109232059492053594c4c41424c45205741),
  (29, 0x307841323833090977617009232059492053594c4c41424c4520574150),
  (31, 0x307841323834090977756f7809232059492053594c4c41424c452057554f58),
  (29, 0x307841323835090977756f09232059492053594c4c41424c452057554f),
  (31, 0x307841323836090977756f7009232059492053594c4c41424c452057554f50),
  (29, 0x3078413238370909776f7809232059492053594c4c41424c4520574f58),
  (27, 0x3078413238380909776f09232059492053594c4c41424c4520574f),
  (29, 0x3078413238390909776f7009232059492053594c4c41424c4520574f50),
  (29, 0x307841323841090977657809232059492053594c4c41424c4520574558),
  (27, 0x3078413238420909776509232059492053594c4c41424c45205745),
  (29, 0x307841323843090977657009232059492053594c4c41424c4520574550),
  (29, 0x30784132384409097a697409232059492053594c4c41424c45205a4954),
  (29, 0x30784132384509097a697809232059492053594c4c41424c45205a4958),
  (27, 0x30784132384609097a6909232059492053594c4c41424c45205a49),
  (0, 0x0),
  (29, 0x30784132393009097a697009232059492053594c4c41424c45205a4950),
  (31, 0x30784132393109097a69657809232059492053594c4c41424c45205a494558),
  (29, 0x30784132393209097a696509232059492053594c4c41424c45205a4945),
  (31, 0x30784132393309097a69657009232059492053594c4c41424c45205a494550),
  (29, 0x30784132393409097a617409232059492053594c4c41424c45205a4154),
  (29, 0x30784132393509097a617809232059492053594c4c41424c45205a4158),
  (27, 0x30784132393609097a6109232059492053594c4c41424c45205a41),
  (29, 0x30784132393709097a617009232059492053594c4c41424c45205a4150),
  (31, 0x30784132393809097a756f7809232059492053594c4c41424c45205a554f58),
  (29, 0x30784132393909097a756f09232059492053594c4c41424c45205a554f),
  (31, 0x30784132394109097a756f7009232059492053594c4c41424c45205a554f50),
  (29, 0x30784132394209097a6f7409232059492053594c4c41424c45205a4f54),
  (29, 0x30784132394309097a6f7809232059492053594c4c41424c45205a4f58),
  (27, 0x30784132394409097a6f09232059492053594c4c41424c45205a4f),
  (29, 0x30784132394509097a6f7009232059492053594c4c41424c45205a4f50),
  (29, 0x30784132394609097a657809232059492053594c4c41424c45205a4558),
  (0, 0x0),
  (27, 0x30784132413009097a6509232059492053594c4c41424c45205a45),
  (29, 0x30784132413109097a657009232059492053594c4c41424c45205a4550),
  (29, 0x30784132413209097a757409232059492053594c4c41424c45205a5554),
  (29, 0x30784132413309097a757809232059492053594c4c41424c45205a5558),
  (27, 0x30784132413409097a7509232059492053594c4c41424c45205a55),
  (29, 0x30784132413509097a757009232059492053594c4c41424c45205a5550),
  (31, 0x30784132413609097a75727809232059492053594c4c41424c45205a555258),
  (29, 0x30784132413709097a757209232059492053594c4c41424c45205a5552),
  (29, 0x30784132413809097a797409232059492053594c4c41424c45205a5954),
  (29, 0x30784132413909097a797809232059492053594c4c41424c45205a5958),
  (27, 0x30784132414109097a7909232059492053594c4c41424c45205a59),
  (29, 0x30784132414209097a797009232059492053594c4c41424c45205a5950),
  (31, 0x30784132414309097a79727809232059492053594c4c41424c45205a595258),
  (29, 0x30784132414409097a797209232059492053594c4c41424c45205a5952),
  (29, 0x307841324145090963697409232059492053594c4c41424c4520434954),
  (29, 0x307841324146090963697809232059492053594c4c41424c4520434958),
  (0, 0x0),
  (27, 0x3078413242300909636909232059492053594c4c41424c45204349),
  (29, 0x307841324231090963697009232059492053594c4c41424c4520434950),
  (31, 0x30784132423209096369657409232059492053594c4c41424c452043494554),
  (31, 0x30784132423309096369657809232059492053594c4c41424c452043494558),
  (29, 0x307841324234090963696509232059492053594c4c41424c4520434945),
  (31, 0x30784132423509096369657009232059492053594c4c41424c452043494550),
  (29, 0x307841324236090963617409232059492053594c4c41424c4520434154),
  (29, 0x307841324237090963617809232059492053594c4c41424c4520434158),
  (27, 0x3078413242380909636109232059492053594c4c41424c45204341),
  (29, 0x307841324239090963617009232059492053594c4c41424c4520434150),
  (31, 0x307841324241090963756f7809232059492053594c4c41424c452043554f58),
  (29, 0x307841324242090963756f09232059492053594c4c41424c452043554f),
  (31, 0x307841324243090963756f7009232059492053594c4c41424c452043554f50),
  (29, 0x3078413242440909636f7409232059492053594c4c41424c4520434f54),
  (29, 0x3078413242450909636f7809232059492053594c4c41424c4520434f58),
  (27, 0x3078413242460909636f09232059492053594c4c41424c4520434f),
  (0, 0x0),
  (29, 0x3078413243300909636f7009232059492053594c4c41424c4520434f50),
  (29, 0x307841324331090963657809232059492053594c4c41424c4520434558),
  (27, 0x3078413243320909636509232059492053594c4c41424c45204345),
  (29, 0x307841324333090963657009232059492053594c4c41424c4520434550),
  (29, 0x307841324334090963757409232059492053594c4c41424c4520435554),
  (29, 0x307841324335090963757809232059492053594c4c41424c4520435558),
  (27, 0x3078413243360909637509232059492053594c4c41424c45204355),
  (29, 0x307841324337090963757009232059492053594c4c41424c4520435550),
  (31, 0x30784132433809096375727809232059492053594c4c41424c452043555258),
  (29, 0x307841324339090963757209232059492053594c4c41424c4520435552),
  (29, 0x307841324341090963797409232059492053594c4c41424c4520435954),
  (29, 0x307841324342090963797809232059492053594c4c41424c4520435958)]

/-- Lines 7819-7918 of table/legacy/unidecode.tbl. -/
def legacy_unidecode_80 : List (Nat × Nat) := [
  (27, 0x3078413243430909637909232059492053594c4c41424c45204359),
  (29, 0x307841324344090963797009232059492053594c4c41424c4520435950),
  (31, 0x30784132434509096379727809232059492053594c4c41424c452043595258),
  (29, 0x307841324346090963797209232059492053594c4c41424c4520435952),
  (0, 0x0),
  (31, 0x30784132443009097a7a697409232059492053594c4c41424c45205a5a4954),
  (31, 0x30784132443109097a7a697809232059492053594c4c41424c45205a5a4958),
  (29, 0x30784132443209097a7a6909232059492053594c4c41424c45205a5a49),
  (31, 0x30784132443309097a7a697009232059492053594c4c41424c45205a5a4950),
  (33, 0x30784132443409097a7a69657409232059492053594c4c41424c45205a5a494554),
  (33, 0x30784132443509097a7a69657809232059492053594c4c41424c45205a5a494558),
  (31, 0x30784132443609097a7a696509232059492053594c4c41424c45205a5a4945),
  (33, 0x30784132443709097a7a69657009232059492053594c4c41424c45205a5a494550),
  (31, 0x30784132443809097a7a617409232059492053594c4c41424c45205a5a4154),
  (31, 0x30784132443909097a7a617809232059492053594c4c41424c45205a5a4158),
  (29, 0x30784132444109097a7a6109232059492053594c4c41424c45205a5a41),
  (31, 0x30784132444209097a7a617009232059492053594c4c41424c45205a5a4150),
  (31, 0x30784132444309097a7a6f7809232059492053594c4c41424c45205a5a4f58),
  (29, 0x30784132444409097a7a6f09232059492053594c4c41424c45205a5a4f),
  (31, 0x30784132444509097a7a6f7009232059492053594c4c41424c45205a5a4f50),
  (31, 0x30784132444609097a7a657809232059492053594c4c41424c45205a5a4558),
  (0, 0x0),
  (29, 0x30784132453009097a7a6509232059492053594c4c41424c45205a5a45),
  (31, 0x30784132453109097a7a657009232059492053594c4c41424c45205a5a4550),
  (31, 0x30784132453209097a7a757809232059492053594c4c41424c45205a5a5558),
  (29, 0x30784132453309097a7a7509232059492053594c4c41424c45205a5a55),
  (31, 0x30784132453409097a7a757009232059492053594c4c41424c45205a5a5550),
  (33, 0x30784132453509097a7a75727809232059492053594c4c41424c45205a5a555258),
  (31, 0x30784132453609097a7a757209232059492053594c4c41424c45205a5a5552),
  (31, 0x30784132453709097a7a797409232059492053594c4c41424c45205a5a5954),
  (31, 0x30784132453809097a7a797809232059492053594c4c41424c45205a5a5958),
  (29, 0x30784132453909097a7a7909232059492053594c4c41424c45205a5a59),
  (31, 0x30784132454109097a7a797009232059492053594c4c41424c45205a5a5950),
  (33, 0x30784132454209097a7a79727809232059492053594c4c41424c45205a5a595258),
  (31, 0x30784132454309097a7a797209232059492053594c4c41424c45205a5a5952),
  (31, 0x30784132454409096e7a697409232059492053594c4c41424c45204e5a4954),
  (31, 0x30784132454509096e7a697809232059492053594c4c41424c45204e5a4958),
  (29, 0x30784132454609096e7a6909232059492053594c4c41424c45204e5a49),
  (0, 0x0),
  (31, 0x30784132463009096e7a697009232059492053594c4c41424c45204e5a4950),
  (33, 0x30784132463109096e7a69657809232059492053594c4c41424c45204e5a494558),
  (31, 0x30784132463209096e7a696509232059492053594c4c41424c45204e5a4945),
  (33, 0x30784132463309096e7a69657009232059492053594c4c41424c45204e5a494550),
  (31, 0x30784132463409096e7a617409232059492053594c4c41424c45204e5a4154),
  (31, 0x30784132463509096e7a617809232059492053594c4c41424c45204e5a4158),
  (29, 0x30784132463609096e7a6109232059492053594c4c41424c45204e5a41),
  (31, 0x30784132463709096e7a617009232059492053594c4c41424c45204e5a4150),
  (33, 0x30784132463809096e7a756f7809232059492053594c4c41424c45204e5a554f58),
  (31, 0x30784132463909096e7a756f09232059492053594c4c41424c45204e5a554f),
  (31, 0x30784132464109096e7a6f7809232059492053594c4c41424c45204e5a4f58),
  (31, 0x30784132464209096e7a6f7009232059492053594c4c41424c45204e5a4f50),
  (31, 0x30784132464309096e7a657809232059492053594c4c41424c45204e5a4558),
  (29, 0x30784132464409096e7a6509232059492053594c4c41424c45204e5a45),
  (31, 0x30784132464509096e7a757809232059492053594c4c41424c45204e5a5558),
  (29, 0x30784132464609096e7a7509232059492053594c4c41424c45204e5a55),
  (0, 0x0),
  (1, 0x23),
  (29, 0x2320436861726163746572732030784133303020746f20307841334646),
  (1, 0x23),
  (0, 0x0),
  (31, 0x30784133303009096e7a757009232059492053594c4c41424c45204e5a5550),
  (33, 0x30784133303109096e7a75727809232059492053594c4c41424c45204e5a555258),
  (31, 0x30784133303209096e7a757209232059492053594c4c41424c45204e5a5552),
  (31, 0x30784133303309096e7a797409232059492053594c4c41424c45204e5a5954),
  (31, 0x30784133303409096e7a797809232059492053594c4c41424c45204e5a5958),
  (29, 0x30784133303509096e7a7909232059492053594c4c41424c45204e5a59),
  (31, 0x30784133303609096e7a797009232059492053594c4c41424c45204e5a5950),
  (33, 0x30784133303709096e7a79727809232059492053594c4c41424c45204e5a595258),
  (31, 0x30784133303809096e7a797209232059492053594c4c41424c45204e5a5952),
  (29, 0x307841333039090973697409232059492053594c4c41424c4520534954),
  (29, 0x307841333041090973697809232059492053594c4c41424c4520534958),
  (27, 0x3078413330420909736909232059492053594c4c41424c45205349),
  (29, 0x307841333043090973697009232059492053594c4c41424c4520534950),
  (31, 0x30784133304409097369657809232059492053594c4c41424c452053494558),
  (29, 0x307841333045090973696509232059492053594c4c41424c4520534945),
  (31, 0x30784133304609097369657009232059492053594c4c41424c452053494550),
  (0, 0x0),
  (29, 0x307841333130090973617409232059492053594c4c41424c4520534154),
  (29, 0x307841333131090973617809232059492053594c4c41424c4520534158),
  (27, 0x3078413331320909736109232059492053594c4c41424c45205341),
  (29, 0x307841333133090973617009232059492053594c4c41424c4520534150),
  (31, 0x307841333134090973756f7809232059492053594c4c41424c452053554f58),
  (29, 0x307841333135090973756f09232059492053594c4c41424c452053554f),
  (31, 0x307841333136090973756f7009232059492053594c4c41424c452053554f50),
  (29, 0x3078413331370909736f7409232059492053594c4c41424c4520534f54),
  (29, 0x3078413331380909736f7809232059492053594c4c41424c4520534f58),
  (27, 0x3078413331390909736f09232059492053594c4c41424c4520534f),
  (29, 0x3078413331410909736f7009232059492053594c4c41424c4520534f50),
  (29, 0x307841333142090973657809232059492053594c4c41424c4520534558),
  (27, 0x3078413331430909736509232059492053594c4c41424c45205345),
  (29, 0x307841333144090973657009232059492053594c4c41424c4520534550),
  (29, 0x307841333145090973757409232059492053594c4c41424c4520535554),
  (29, 0x307841333146090973757809232059492053594c4c41424c4520535558),
  (0, 0x0),
  (27, 0x3078413332300909737509232059492053594c4c41424c45205355),
  (29, 0x307841333231090973757009232059492053594c4c41424c4520535550),
  (31, 0x30784133323209097375727809232059492053594c4c41424c452053555258),
  (29, 0x307841333233090973757209232059492053594c4c41424c4520535552),
  (29, 0x307841333234090973797409232059492053594c4c41424c4520535954),
  (29, 0x307841333235090973797809232059492053594c4c41424c4520535958)]

/-- Lines 7919-8018 of table/legacy/unidecode.tbl. -/
def legacy_unidecode_81 : List (Nat × Nat) := [
  (27, 0x3078413332360909737909232059492053594c4c41424c45205359),
  (29, 0x307841333237090973797009232059492053594c4c41424c4520535950),
  (31, 0x30784133323809097379727809232059492053594c4c41424c452053595258),
  (29, 0x307841333239090973797209232059492053594c4c41424c4520535952),
  (31, 0x30784133324109097373697409232059492053594c4c41424c452053534954),
  (31, 0x30784133324209097373697809232059492053594c4c41424c452053534958),
  (29, 0x307841333243090973736909232059492053594c4c41424c4520535349),
  (31, 0x30784133324409097373697009232059492053594c4c41424c452053534950),
  (33, 0x3078413332450909737369657809232059492053594c4c41424c45205353494558),
  (31, 0x30784133324609097373696509232059492053594c4c41424c452053534945),
  (0, 0x0),
  (33, 0x3078413333300909737369657009232059492053594c4c41424c45205353494550),
  (31, 0x30784133333109097373617409232059492053594c4c41424c452053534154),
  (31, 0x30784133333209097373617809232059492053594c4c41424c452053534158),
  (29, 0x307841333333090973736109232059492053594c4c41424c4520535341),
  (31, 0x30784133333409097373617009232059492053594c4c41424c452053534150),
  (31, 0x307841333335090973736f7409232059492053594c4c41424c452053534f54),
  (31, 0x307841333336090973736f7809232059492053594c4c41424c452053534f58),
  (29, 0x307841333337090973736f09232059492053594c4c41424c452053534f),
  (31, 0x307841333338090973736f7009232059492053594c4c41424c452053534f50),
  (31, 0x30784133333909097373657809232059492053594c4c41424c452053534558),
  (29, 0x307841333341090973736509232059492053594c4c41424c4520535345),
  (31, 0x30784133334209097373657009232059492053594c4c41424c452053534550),
  (31, 0x30784133334309097373757409232059492053594c4c41424c452053535554),
  (31, 0x30784133334409097373757809232059492053594c4c41424c452053535558),
  (29, 0x307841333345090973737509232059492053594c4c41424c4520535355),
  (31, 0x30784133334609097373757009232059492053594c4c41424c452053535550),
  (0, 0x0),
  (31, 0x30784133343009097373797409232059492053594c4c41424c452053535954),
  (31, 0x30784133343109097373797809232059492053594c4c41424c452053535958),
  (29, 0x307841333432090973737909232059492053594c4c41424c4520535359),
  (31, 0x30784133343309097373797009232059492053594c4c41424c452053535950),
  (33, 0x3078413334340909737379727809232059492053594c4c41424c45205353595258),
  (31, 0x30784133343509097373797209232059492053594c4c41424c452053535952),
  (31, 0x30784133343609097a68617409232059492053594c4c41424c45205a484154),
  (31, 0x30784133343709097a68617809232059492053594c4c41424c45205a484158),
  (29, 0x30784133343809097a686109232059492053594c4c41424c45205a4841),
  (31, 0x30784133343909097a68617009232059492053594c4c41424c45205a484150),
  (33, 0x30784133344109097a68756f7809232059492053594c4c41424c45205a48554f58),
  (31, 0x30784133344209097a68756f09232059492053594c4c41424c45205a48554f),
  (33, 0x30784133344309097a68756f7009232059492053594c4c41424c45205a48554f50),
  (31, 0x30784133344409097a686f7409232059492053594c4c41424c45205a484f54),
  (31, 0x30784133344509097a686f7809232059492053594c4c41424c45205a484f58),
  (29, 0x30784133344609097a686f09232059492053594c4c41424c45205a484f),
  (0, 0x0),
  (31, 0x30784133353009097a686f7009232059492053594c4c41424c45205a484f50),
  (31, 0x30784133353109097a68657409232059492053594c4c41424c45205a484554),
  (31, 0x30784133353209097a68657809232059492053594c4c41424c45205a484558),
  (29, 0x30784133353309097a686509232059492053594c4c41424c45205a4845),
  (31, 0x30784133353409097a68657009232059492053594c4c41424c45205a484550),
  (31, 0x30784133353509097a68757409232059492053594c4c41424c45205a485554),
  (31, 0x30784133353609097a68757809232059492053594c4c41424c45205a485558),
  (29, 0x30784133353709097a687509232059492053594c4c41424c45205a4855),
  (31, 0x30784133353809097a68757009232059492053594c4c41424c45205a485550),
  (33, 0x30784133353909097a6875727809232059492053594c4c41424c45205a48555258),
  (31, 0x30784133354109097a68757209232059492053594c4c41424c45205a485552),
  (31, 0x30784133354209097a68797409232059492053594c4c41424c45205a485954),
  (31, 0x30784133354309097a68797809232059492053594c4c41424c45205a485958),
  (29, 0x30784133354409097a687909232059492053594c4c41424c45205a4859),
  (31, 0x30784133354509097a68797009232059492053594c4c41424c45205a485950),
  (33, 0x30784133354609097a6879727809232059492053594c4c41424c45205a48595258),
  (0, 0x0),
  (31, 0x30784133363009097a68797209232059492053594c4c41424c45205a485952),
  (31, 0x30784133363109096368617409232059492053594c4c41424c452043484154),
  (31, 0x30784133363209096368617809232059492053594c4c41424c452043484158),
  (29, 0x307841333633090963686109232059492053594c4c41424c4520434841),
  (31, 0x30784133363409096368617009232059492053594c4c41424c452043484150),
  (33, 0x30784133363509096368756f7409232059492053594c4c41424c45204348554f54),
  (33, 0x30784133363609096368756f7809232059492053594c4c41424c45204348554f58),
  (31, 0x30784133363709096368756f09232059492053594c4c41424c45204348554f),
  (33, 0x30784133363809096368756f7009232059492053594c4c41424c45204348554f50),
  (31, 0x307841333639090963686f7409232059492053594c4c41424c452043484f54),
  (31, 0x307841333641090963686f7809232059492053594c4c41424c452043484f58),
  (29, 0x307841333642090963686f09232059492053594c4c41424c452043484f),
  (31, 0x307841333643090963686f7009232059492053594c4c41424c452043484f50),
  (31, 0x30784133364409096368657409232059492053594c4c41424c452043484554),
  (31, 0x30784133364509096368657809232059492053594c4c41424c452043484558),
  (29, 0x307841333646090963686509232059492053594c4c41424c4520434845),
  (0, 0x0),
  (31, 0x30784133373009096368657009232059492053594c4c41424c452043484550),
  (31, 0x30784133373109096368757809232059492053594c4c41424c452043485558),
  (29, 0x307841333732090963687509232059492053594c4c41424c4520434855),
  (31, 0x30784133373309096368757009232059492053594c4c41424c452043485550),
  (33, 0x3078413337340909636875727809232059492053594c4c41424c45204348555258),
  (31, 0x30784133373509096368757209232059492053594c4c41424c452043485552),
  (31, 0x30784133373609096368797409232059492053594c4c41424c452043485954),
  (31, 0x30784133373709096368797809232059492053594c4c41424c452043485958),
  (29, 0x307841333738090963687909232059492053594c4c41424c4520434859),
  (31, 0x30784133373909096368797009232059492053594c4c41424c452043485950),
  (33, 0x3078413337410909636879727809232059492053594c4c41424c45204348595258),
  (31, 0x30784133374209096368797209232059492053594c4c41424c452043485952),
  (31, 0x30784133374309097272617809232059492053594c4c41424c452052524158),
  (29, 0x307841333744090972726109232059492053594c4c41424c4520525241),
  (33, 0x30784133374509097272756f7809232059492053594c4c41424c45205252554f58),
  (31, 0x30784133374609097272756f09232059492053594c4c41424c45205252554f),
  (0, 0x0),
  (31, 0x307841333830090972726f7409232059492053594c4c41424c452052524f54),
  (31, 0x307841333831090972726f7809232059492053594c4c41424c452052524f58),
  (29, 0x307841333832090972726f09232059492053594c4c41424c452052524f),
  (31, 0x307841333833090972726f7009232059492053594c4c41424c452052524f50)]

/-- Lines 8019-8118 of table/legacy/unidecode.tbl. -/
def legacy_unidecode_82 : List (Nat × Nat) := [
  (31, 0x30784133383409097272657409232059492053594c4c41424c452052524554),
  (31, 0x30784133383509097272657809232059492053594c4c41424c452052524558),
  (29, 0x307841333836090972726509232059492053594c4c41424c4520525245),
  (31, 0x30784133383709097272657009232059492053594c4c41424c452052524550),
  (31, 0x30784133383809097272757409232059492053594c4c41424c452052525554),
  (31, 0x30784133383909097272757809232059492053594c4c41424c452052525558),
  (29, 0x307841333841090972727509232059492053594c4c41424c4520525255),
  (31, 0x30784133384209097272757009232059492053594c4c41424c452052525550),
  (33, 0x3078413338430909727275727809232059492053594c4c41424c45205252555258),
  (31, 0x30784133384409097272757209232059492053594c4c41424c452052525552),
  (31, 0x30784133384509097272797409232059492053594c4c41424c452052525954),
  (31, 0x30784133384609097272797809232059492053594c4c41424c452052525958),
  (0, 0x0),
  (29, 0x307841333930090972727909232059492053594c4c41424c4520525259),
  (31, 0x30784133393109097272797009232059492053594c4c41424c452052525950),
  (33, 0x3078413339320909727279727809232059492053594c4c41424c45205252595258),
  (31, 0x30784133393309097272797209232059492053594c4c41424c452052525952),
  (31, 0x30784133393409096e72617409232059492053594c4c41424c45204e524154),
  (31, 0x30784133393509096e72617809232059492053594c4c41424c45204e524158),
  (29, 0x30784133393609096e726109232059492053594c4c41424c45204e5241),
  (31, 0x30784133393709096e72617009232059492053594c4c41424c45204e524150),
  (31, 0x30784133393809096e726f7809232059492053594c4c41424c45204e524f58),
  (29, 0x30784133393909096e726f09232059492053594c4c41424c45204e524f),
  (31, 0x30784133394109096e726f7009232059492053594c4c41424c45204e524f50),
  (31, 0x30784133394209096e72657409232059492053594c4c41424c45204e524554),
  (31, 0x30784133394309096e72657809232059492053594c4c41424c45204e524558),
  (29, 0x30784133394409096e726509232059492053594c4c41424c45204e5245),
  (31, 0x30784133394509096e72657009232059492053594c4c41424c45204e524550),
  (31, 0x30784133394609096e72757409232059492053594c4c41424c45204e525554),
  (0, 0x0),
  (31, 0x30784133413009096e72757809232059492053594c4c41424c45204e525558),
  (29, 0x30784133413109096e727509232059492053594c4c41424c45204e5255),
  (31, 0x30784133413209096e72757009232059492053594c4c41424c45204e525550),
  (33, 0x30784133413309096e7275727809232059492053594c4c41424c45204e52555258),
  (31, 0x30784133413409096e72757209232059492053594c4c41424c45204e525552),
  (31, 0x30784133413509096e72797409232059492053594c4c41424c45204e525954),
  (31, 0x30784133413609096e72797809232059492053594c4c41424c45204e525958),
  (29, 0x30784133413709096e727909232059492053594c4c41424c45204e5259),
  (31, 0x30784133413809096e72797009232059492053594c4c41424c45204e525950),
  (33, 0x30784133413909096e7279727809232059492053594c4c41424c45204e52595258),
  (31, 0x30784133414109096e72797209232059492053594c4c41424c45204e525952),
  (31, 0x30784133414209097368617409232059492053594c4c41424c452053484154),
  (31, 0x30784133414309097368617809232059492053594c4c41424c452053484158),
  (29, 0x307841334144090973686109232059492053594c4c41424c4520534841),
  (31, 0x30784133414509097368617009232059492053594c4c41424c452053484150),
  (33, 0x30784133414609097368756f7809232059492053594c4c41424c45205348554f58),
  (0, 0x0),
  (31, 0x30784133423009097368756f09232059492053594c4c41424c45205348554f),
  (33, 0x30784133423109097368756f7009232059492053594c4c41424c45205348554f50),
  (31, 0x307841334232090973686f7409232059492053594c4c41424c452053484f54),
  (31, 0x307841334233090973686f7809232059492053594c4c41424c452053484f58),
  (29, 0x307841334234090973686f09232059492053594c4c41424c452053484f),
  (31, 0x307841334235090973686f7009232059492053594c4c41424c452053484f50),
  (31, 0x30784133423609097368657409232059492053594c4c41424c452053484554),
  (31, 0x30784133423709097368657809232059492053594c4c41424c452053484558),
  (29, 0x307841334238090973686509232059492053594c4c41424c4520534845),
  (31, 0x30784133423909097368657009232059492053594c4c41424c452053484550),
  (31, 0x30784133424109097368757409232059492053594c4c41424c452053485554),
  (31, 0x30784133424209097368757809232059492053594c4c41424c452053485558),
  (29, 0x307841334243090973687509232059492053594c4c41424c4520534855),
  (31, 0x30784133424409097368757009232059492053594c4c41424c452053485550),
  (33, 0x3078413342450909736875727809232059492053594c4c41424c45205348555258),
  (31, 0x30784133424609097368757209232059492053594c4c41424c452053485552),
  (0, 0x0),
  (31, 0x30784133433009097368797409232059492053594c4c41424c452053485954),
  (31, 0x30784133433109097368797809232059492053594c4c41424c452053485958),
  (29, 0x307841334332090973687909232059492053594c4c41424c4520534859),
  (31, 0x30784133433309097368797009232059492053594c4c41424c452053485950),
  (33, 0x3078413343340909736879727809232059492053594c4c41424c45205348595258),
  (31, 0x30784133433509097368797209232059492053594c4c41424c452053485952),
  (29, 0x307841334336090972617409232059492053594c4c41424c4520524154),
  (29, 0x307841334337090972617809232059492053594c4c41424c4520524158),
  (27, 0x3078413343380909726109232059492053594c4c41424c45205241),
  (29, 0x307841334339090972617009232059492053594c4c41424c4520524150),
  (31, 0x307841334341090972756f7809232059492053594c4c41424c452052554f58),
  (29, 0x307841334342090972756f09232059492053594c4c41424c452052554f),
  (31, 0x307841334343090972756f7009232059492053594c4c41424c452052554f50),
  (29, 0x3078413343440909726f7409232059492053594c4c41424c4520524f54),
  (29, 0x3078413343450909726f7809232059492053594c4c41424c4520524f58),
  (27, 0x3078413343460909726f09232059492053594c4c41424c4520524f),
  (0, 0x0),
  (29, 0x3078413344300909726f7009232059492053594c4c41424c4520524f50),
  (29, 0x307841334431090972657809232059492053594c4c41424c4520524558),
  (27, 0x3078413344320909726509232059492053594c4c41424c45205245),
  (29, 0x307841334433090972657009232059492053594c4c41424c4520524550),
  (29, 0x307841334434090972757409232059492053594c4c41424c4520525554),
  (29, 0x307841334435090972757809232059492053594c4c41424c4520525558),
  (27, 0x3078413344360909727509232059492053594c4c41424c45205255),
  (29, 0x307841334437090972757009232059492053594c4c41424c4520525550),
  (31, 0x30784133443809097275727809232059492053594c4c41424c452052555258),
  (29, 0x307841334439090972757209232059492053594c4c41424c4520525552),
  (29, 0x307841334441090972797409232059492053594c4c41424c4520525954),
  (29, 0x307841334442090972797809232059492053594c4c41424c4520525958),
  (27, 0x3078413344430909727909232059492053594c4c41424c45205259),
  (29, 0x307841334444090972797009232059492053594c4c41424c4520525950),
  (31, 0x30784133444509097279727809232059492053594c4c41424c452052595258),
  (29, 0x307841334446090972797209232059492053594c4c41424c4520525952),
  (0, 0x0),
  (29, 0x30784133453009096a697409232059492053594c4c41424c45204a4954),
  (29, 0x30784133453109096a697809232059492053594c4c41424c45204a4958)]

/-- Lines 8119-8218 of table/legacy/unidecode.tbl. -/
def legacy_unidecode_83 : List (Nat × Nat) := [
  (27, 0x30784133453209096a6909232059492053594c4c41424c45204a49),
  (29, 0x30784133453309096a697009232059492053594c4c41424c45204a4950),
  (31, 0x30784133453409096a69657409232059492053594c4c41424c45204a494554),
  (31, 0x30784133453509096a69657809232059492053594c4c41424c45204a494558),
  (29, 0x30784133453609096a696509232059492053594c4c41424c45204a4945),
  (31, 0x30784133453709096a69657009232059492053594c4c41424c45204a494550),
  (31, 0x30784133453809096a756f7409232059492053594c4c41424c45204a554f54),
  (31, 0x30784133453909096a756f7809232059492053594c4c41424c45204a554f58),
  (29, 0x30784133454109096a756f09232059492053594c4c41424c45204a554f),
  (31, 0x30784133454209096a756f7009232059492053594c4c41424c45204a554f50),
  (29, 0x30784133454309096a6f7409232059492053594c4c41424c45204a4f54),
  (29, 0x30784133454409096a6f7809232059492053594c4c41424c45204a4f58),
  (27, 0x30784133454509096a6f09232059492053594c4c41424c45204a4f),
  (29, 0x30784133454609096a6f7009232059492053594c4c41424c45204a4f50),
  (0, 0x0),
  (29, 0x30784133463009096a757409232059492053594c4c41424c45204a5554),
  (29, 0x30784133463109096a757809232059492053594c4c41424c45204a5558),
  (27, 0x30784133463209096a7509232059492053594c4c41424c45204a55),
  (29, 0x30784133463309096a757009232059492053594c4c41424c45204a5550),
  (31, 0x30784133463409096a75727809232059492053594c4c41424c45204a555258),
  (29, 0x30784133463509096a757209232059492053594c4c41424c45204a5552),
  (29, 0x30784133463609096a797409232059492053594c4c41424c45204a5954),
  (29, 0x30784133463709096a797809232059492053594c4c41424c45204a5958),
  (27, 0x30784133463809096a7909232059492053594c4c41424c45204a59),
  (29, 0x30784133463909096a797009232059492053594c4c41424c45204a5950),
  (31, 0x30784133464109096a79727809232059492053594c4c41424c45204a595258),
  (29, 0x30784133464209096a797209232059492053594c4c41424c45204a5952),
  (29, 0x307841334643090971697409232059492053594c4c41424c4520514954),
  (29, 0x307841334644090971697809232059492053594c4c41424c4520514958),
  (27, 0x3078413346450909716909232059492053594c4c41424c45205149),
  (29, 0x307841334646090971697009232059492053594c4c41424c4520514950),
  (0, 0x0),
  (1, 0x23),
  (29, 0x2320436861726163746572732030784134303020746f20307841344646),
  (1, 0x23),
  (0, 0x0),
  (31, 0x30784134303009097169657409232059492053594c4c41424c452051494554),
  (31, 0x30784134303109097169657809232059492053594c4c41424c452051494558),
  (29, 0x307841343032090971696509232059492053594c4c41424c4520514945),
  (31, 0x30784134303309097169657009232059492053594c4c41424c452051494550),
  (31, 0x307841343034090971756f7409232059492053594c4c41424c452051554f54),
  (31, 0x307841343035090971756f7809232059492053594c4c41424c452051554f58),
  (29, 0x307841343036090971756f09232059492053594c4c41424c452051554f),
  (31, 0x307841343037090971756f7009232059492053594c4c41424c452051554f50),
  (29, 0x3078413430380909716f7409232059492053594c4c41424c4520514f54),
  (29, 0x3078413430390909716f7809232059492053594c4c41424c4520514f58),
  (27, 0x3078413430410909716f09232059492053594c4c41424c4520514f),
  (29, 0x3078413430420909716f7009232059492053594c4c41424c4520514f50),
  (29, 0x307841343043090971757409232059492053594c4c41424c4520515554),
  (29, 0x307841343044090971757809232059492053594c4c41424c4520515558),
  (27, 0x3078413430450909717509232059492053594c4c41424c45205155),
  (29, 0x307841343046090971757009232059492053594c4c41424c4520515550),
  (0, 0x0),
  (31, 0x30784134313009097175727809232059492053594c4c41424c452051555258),
  (29, 0x307841343131090971757209232059492053594c4c41424c4520515552),
  (29, 0x307841343132090971797409232059492053594c4c41424c4520515954),
  (29, 0x307841343133090971797809232059492053594c4c41424c4520515958),
  (27, 0x3078413431340909717909232059492053594c4c41424c45205159),
  (29, 0x307841343135090971797009232059492053594c4c41424c4520515950),
  (31, 0x30784134313609097179727809232059492053594c4c41424c452051595258),
  (29, 0x307841343137090971797209232059492053594c4c41424c4520515952),
  (31, 0x30784134313809096a6a697409232059492053594c4c41424c45204a4a4954),
  (31, 0x30784134313909096a6a697809232059492053594c4c41424c45204a4a4958),
  (29, 0x30784134314109096a6a6909232059492053594c4c41424c45204a4a49),
  (31, 0x30784134314209096a6a697009232059492053594c4c41424c45204a4a4950),
  (33, 0x30784134314309096a6a69657409232059492053594c4c41424c45204a4a494554),
  (33, 0x30784134314409096a6a69657809232059492053594c4c41424c45204a4a494558),
  (31, 0x30784134314509096a6a696509232059492053594c4c41424c45204a4a4945),
  (33, 0x30784134314609096a6a69657009232059492053594c4c41424c45204a4a494550),
  (0, 0x0),
  (33, 0x30784134323009096a6a756f7809232059492053594c4c41424c45204a4a554f58),
  (31, 0x30784134323109096a6a756f09232059492053594c4c41424c45204a4a554f),
  (33, 0x30784134323209096a6a756f7009232059492053594c4c41424c45204a4a554f50),
  (31, 0x30784134323309096a6a6f7409232059492053594c4c41424c45204a4a4f54),
  (31, 0x30784134323409096a6a6f7809232059492053594c4c41424c45204a4a4f58),
  (29, 0x30784134323509096a6a6f09232059492053594c4c41424c45204a4a4f),
  (31, 0x30784134323609096a6a6f7009232059492053594c4c41424c45204a4a4f50),
  (31, 0x30784134323709096a6a757409232059492053594c4c41424c45204a4a5554),
  (31, 0x30784134323809096a6a757809232059492053594c4c41424c45204a4a5558),
  (29, 0x30784134323909096a6a7509232059492053594c4c41424c45204a4a55),
  (31, 0x30784134324109096a6a757009232059492053594c4c41424c45204a4a5550),
  (33, 0x30784134324209096a6a75727809232059492053594c4c41424c45204a4a555258),
  (31, 0x30784134324309096a6a757209232059492053594c4c41424c45204a4a5552),
  (31, 0x30784134324409096a6a797409232059492053594c4c41424c45204a4a5954),
  (31, 0x30784134324509096a6a797809232059492053594c4c41424c45204a4a5958),
  (29, 0x30784134324609096a6a7909232059492053594c4c41424c45204a4a59),
  (0, 0x0),
  (31, 0x30784134333009096a6a797009232059492053594c4c41424c45204a4a5950),
  (31, 0x30784134333109096e6a697409232059492053594c4c41424c45204e4a4954),
  (31, 0x30784134333209096e6a697809232059492053594c4c41424c45204e4a4958),
  (29, 0x30784134333309096e6a6909232059492053594c4c41424c45204e4a49),
  (31, 0x30784134333409096e6a697009232059492053594c4c41424c45204e4a4950),
  (33, 0x30784134333509096e6a69657409232059492053594c4c41424c45204e4a494554),
  (33, 0x30784134333609096e6a69657809232059492053594c4c41424c45204e4a494558),
  (31, 0x30784134333709096e6a696509232059492053594c4c41424c45204e4a4945),
  (33, 0x30784134333809096e6a69657009232059492053594c4c41424c45204e4a494550),
  (33, 0x30784134333909096e6a756f7809232059492053594c4c41424c45204e4a554f58),
  (31, 0x30784134334109096e6a756f09232059492053594c4c41424c45204e4a554f),
  (31, 0x30784134334209096e6a6f7409232059492053594c4c41424c45204e4a4f54),
  (31, 0x30784134334309096e6a6f7809232059492053594c4c41424c45204e4a4f58)]

/-- Lines 8219-8318 of table/legacy/unidecode.tbl. -/
def legacy_unidecode_84 : List (Nat × Nat) := [
  (29, 0x30784134334409096e6a6f09232059492053594c4c41424c45204e4a4f),
  (31, 0x30784134334509096e6a6f7009232059492053594c4c41424c45204e4a4f50),
  (31, 0x30784134334609096e6a757809232059492053594c4c41424c45204e4a5558),
  (0, 0x0),
  (29, 0x30784134343009096e6a7509232059492053594c4c41424c45204e4a55),
  (31, 0x30784134343109096e6a757009232059492053594c4c41424c45204e4a5550),
  (33, 0x30784134343209096e6a75727809232059492053594c4c41424c45204e4a555258),
  (31, 0x30784134343309096e6a757209232059492053594c4c41424c45204e4a5552),
  (31, 0x30784134343409096e6a797409232059492053594c4c41424c45204e4a5954),
  (31, 0x30784134343509096e6a797809232059492053594c4c41424c45204e4a5958),
  (29, 0x30784134343609096e6a7909232059492053594c4c41424c45204e4a59),
  (31, 0x30784134343709096e6a797009232059492053594c4c41424c45204e4a5950),
  (33, 0x30784134343809096e6a79727809232059492053594c4c41424c45204e4a595258),
  (31, 0x30784134343909096e6a797209232059492053594c4c41424c45204e4a5952),
  (31, 0x30784134344109096e79697409232059492053594c4c41424c45204e594954),
  (31, 0x30784134344209096e79697809232059492053594c4c41424c45204e594958),
  (29, 0x30784134344309096e796909232059492053594c4c41424c45204e5949),
  (31, 0x30784134344409096e79697009232059492053594c4c41424c45204e594950),
  (33, 0x30784134344509096e7969657409232059492053594c4c41424c45204e59494554),
  (33, 0x30784134344609096e7969657809232059492053594c4c41424c45204e59494558),
  (0, 0x0),
  (31, 0x30784134353009096e79696509232059492053594c4c41424c45204e594945),
  (33, 0x30784134353109096e7969657009232059492053594c4c41424c45204e59494550),
  (33, 0x30784134353209096e79756f7809232059492053594c4c41424c45204e59554f58),
  (31, 0x30784134353309096e79756f09232059492053594c4c41424c45204e59554f),
  (33, 0x30784134353409096e79756f7009232059492053594c4c41424c45204e59554f50),
  (31, 0x30784134353509096e796f7409232059492053594c4c41424c45204e594f54),
  (31, 0x30784134353609096e796f7809232059492053594c4c41424c45204e594f58),
  (29, 0x30784134353709096e796f09232059492053594c4c41424c45204e594f),
  (31, 0x30784134353809096e796f7009232059492053594c4c41424c45204e594f50),
  (31, 0x30784134353909096e79757409232059492053594c4c41424c45204e595554),
  (31, 0x30784134354109096e79757809232059492053594c4c41424c45204e595558),
  (29, 0x30784134354209096e797509232059492053594c4c41424c45204e5955),
  (31, 0x30784134354309096e79757009232059492053594c4c41424c45204e595550),
  (29, 0x307841343544090978697409232059492053594c4c41424c4520584954),
  (29, 0x307841343545090978697809232059492053594c4c41424c4520584958),
  (27, 0x3078413435460909786909232059492053594c4c41424c45205849),
  (0, 0x0),
  (29, 0x307841343630090978697009232059492053594c4c41424c4520584950),
  (31, 0x30784134363109097869657409232059492053594c4c41424c452058494554),
  (31, 0x30784134363209097869657809232059492053594c4c41424c452058494558),
  (29, 0x307841343633090978696509232059492053594c4c41424c4520584945),
  (31, 0x30784134363409097869657009232059492053594c4c41424c452058494550),
  (31, 0x307841343635090978756f7809232059492053594c4c41424c452058554f58),
  (29, 0x307841343636090978756f09232059492053594c4c41424c452058554f),
  (29, 0x3078413436370909786f7409232059492053594c4c41424c4520584f54),
  (29, 0x3078413436380909786f7809232059492053594c4c41424c4520584f58),
  (27, 0x3078413436390909786f09232059492053594c4c41424c4520584f),
  (29, 0x3078413436410909786f7009232059492053594c4c41424c4520584f50),
  (29, 0x307841343642090978797409232059492053594c4c41424c4520585954),
  (29, 0x307841343643090978797809232059492053594c4c41424c4520585958),
  (27, 0x3078413436440909787909232059492053594c4c41424c45205859),
  (29, 0x307841343645090978797009232059492053594c4c41424c4520585950),
  (31, 0x30784134364609097879727809232059492053594c4c41424c452058595258),
  (0, 0x0),
  (29, 0x307841343730090978797209232059492053594c4c41424c4520585952),
  (29, 0x307841343731090979697409232059492053594c4c41424c4520594954),
  (29, 0x307841343732090979697809232059492053594c4c41424c4520594958),
  (27, 0x3078413437330909796909232059492053594c4c41424c45205949),
  (29, 0x307841343734090979697009232059492053594c4c41424c4520594950),
  (31, 0x30784134373509097969657409232059492053594c4c41424c452059494554),
  (31, 0x30784134373609097969657809232059492053594c4c41424c452059494558),
  (29, 0x307841343737090979696509232059492053594c4c41424c4520594945),
  (31, 0x30784134373809097969657009232059492053594c4c41424c452059494550),
  (31, 0x307841343739090979756f7409232059492053594c4c41424c452059554f54),
  (31, 0x307841343741090979756f7809232059492053594c4c41424c452059554f58),
  (29, 0x307841343742090979756f09232059492053594c4c41424c452059554f),
  (31, 0x307841343743090979756f7009232059492053594c4c41424c452059554f50),
  (29, 0x3078413437440909796f7409232059492053594c4c41424c4520594f54),
  (29, 0x3078413437450909796f7809232059492053594c4c41424c4520594f58),
  (27, 0x3078413437460909796f09232059492053594c4c41424c4520594f),
  (0, 0x0),
  (29, 0x3078413438300909796f7009232059492053594c4c41424c4520594f50),
  (29, 0x307841343831090979757409232059492053594c4c41424c4520595554),
  (29, 0x307841343832090979757809232059492053594c4c41424c4520595558),
  (27, 0x3078413438330909797509232059492053594c4c41424c45205955),
  (29, 0x307841343834090979757009232059492053594c4c41424c4520595550),
  (31, 0x30784134383509097975727809232059492053594c4c41424c452059555258),
  (29, 0x307841343836090979757209232059492053594c4c41424c4520595552),
  (29, 0x307841343837090979797409232059492053594c4c41424c4520595954),
  (29, 0x307841343838090979797809232059492053594c4c41424c4520595958),
  (27, 0x3078413438390909797909232059492053594c4c41424c45205959),
  (29, 0x307841343841090979797009232059492053594c4c41424c4520595950),
  (31, 0x30784134384209097979727809232059492053594c4c41424c452059595258),
  (29, 0x307841343843090979797209232059492053594c4c41424c4520595952),
  (0, 0x0),
  (28, 0x3078413439300909516f740923205949205241444943414c20514f54),
  (26, 0x30784134393109094c690923205949205241444943414c204c49),
  (28, 0x30784134393209094b69740923205949205241444943414c204b4954),
  (30, 0x30784134393309094e7969700923205949205241444943414c204e594950),
  (28, 0x30784134393409094379700923205949205241444943414c20435950),
  (28, 0x30784134393509095373690923205949205241444943414c20535349),
  (30, 0x307841343936090947676f700923205949205241444943414c2047474f50),
  (28, 0x30784134393709094765700923205949205241444943414c20474550),
  (26, 0x30784134393809094d690923205949205241444943414c204d49),
  (30, 0x3078413439390909487869740923205949205241444943414c2048584954),
  (28, 0x30784134394109094c79720923205949205241444943414c204c5952),
  (30, 0x3078413439420909426275740923205949205241444943414c2042425554),
  (28, 0x30784134394309094d6f700923205949205241444943414c204d4f50),
  (26, 0x3078413439440909596f0923205949205241444943414c20594f)]

/-- Lines 8319-8418 of table/legacy/unidecode.tbl. -/
def legacy_unidecode_85 : List (Nat × Nat) := [
  (28, 0x30784134394509095075740923205949205241444943414c20505554),
  (30, 0x30784134394609094878756f0923205949205241444943414c204858554f),
  (0, 0x0),
  (28, 0x30784134413009095461740923205949205241444943414c20544154),
  (26, 0x307841344131090947610923205949205241444943414c204741),
  (30, 0x3078413441340909446475720923205949205241444943414c2044445552),
  (28, 0x30784134413509094275720923205949205241444943414c20425552),
  (30, 0x30784134413609094767756f0923205949205241444943414c204747554f),
  (30, 0x30784134413709094e796f700923205949205241444943414c204e594f50),
  (26, 0x307841344138090954750923205949205241444943414c205455),
  (26, 0x30784134413909094f700923205949205241444943414c204f50),
  (30, 0x30784134414109094a6a75740923205949205241444943414c204a4a5554),
  (28, 0x30784134414209095a6f740923205949205241444943414c205a4f54),
  (28, 0x30784134414309095079740923205949205241444943414c20505954),
  (28, 0x3078413441440909486d6f0923205949205241444943414c20484d4f),
  (28, 0x30784134414509095969740923205949205241444943414c20594954),
  (28, 0x30784134414609095675720923205949205241444943414c20565552),
  (0, 0x0),
  (28, 0x30784134423009095368790923205949205241444943414c20534859),
  (28, 0x30784134423109095665700923205949205241444943414c20564550),
  (26, 0x30784134423209095a610923205949205241444943414c205a41),
  (26, 0x30784134423309094a6f0923205949205241444943414c204a4f),
  (28, 0x30784134423509094a6a790923205949205241444943414c204a4a59),
  (28, 0x3078413442360909476f740923205949205241444943414c20474f54),
  (30, 0x30784134423709094a6a69650923205949205241444943414c204a4a4945),
  (26, 0x3078413442380909576f0923205949205241444943414c20574f),
  (26, 0x307841344239090944750923205949205241444943414c204455),
  (30, 0x3078413442410909536875720923205949205241444943414c2053485552),
  (28, 0x30784134424209094c69650923205949205241444943414c204c4945),
  (26, 0x307841344243090943790923205949205241444943414c204359),
  (30, 0x307841344244090943756f700923205949205241444943414c2043554f50),
  (28, 0x30784134424509094369700923205949205241444943414c20434950),
  (30, 0x307841344246090948786f700923205949205241444943414c2048584f50),
  (0, 0x0),
  (30, 0x3078413443300909536861740923205949205241444943414c2053484154),
  (30, 0x307841344332090953686f700923205949205241444943414c2053484f50),
  (28, 0x30784134433309094368650923205949205241444943414c20434845),
  (32, 0x30784134433409095a7a6965740923205949205241444943414c205a5a494554),
  (26, 0x30784134433609094b650923205949205241444943414c204b45),
  (0, 0x0),
  (1, 0x23),
  (29, 0x2320436861726163746572732030784135303020746f20307841354646),
  (1, 0x23),
  (0, 0x0),
  (1, 0x23),
  (29, 0x2320436861726163746572732030784136303020746f20307841364646),
  (1, 0x23),
  (0, 0x0),
  (29, 0x30784136304609093f092320564149205155455354494f4e204d41524b),
  (0, 0x0),
  (31, 0x30784136463709093f09232042414d554d205155455354494f4e204d41524b),
  (0, 0x0),
  (1, 0x23),
  (29, 0x2320436861726163746572732030784137303020746f20307841374646),
  (1, 0x23),
  (0, 0x0),
  (1, 0x23),
  (29, 0x2320436861726163746572732030784138303020746f20307841384646),
  (1, 0x23),
  (0, 0x0),
  (1, 0x23),
  (29, 0x2320436861726163746572732030784139303020746f20307841394646),
  (1, 0x23),
  (0, 0x0),
  (1, 0x23),
  (29, 0x2320436861726163746572732030784141303020746f20307841414646),
  (1, 0x23),
  (0, 0x0),
  (1, 0x23),
  (29, 0x2320436861726163746572732030784143303020746f20307841434646),
  (1, 0x23),
  (0, 0x0),
  (37, 0x307841433030090967610923203c48616e67756c2053796c6c61626c652c2046697273743e),
  (37, 0x30784437413309096869680923203c48616e67756c2053796c6c61626c652c204c6173743e),
  (0, 0x0),
  (1, 0x23),
  (29, 0x2320436861726163746572732030784438303020746f20307844384646),
  (1, 0x23),
  (0, 0x0),
  (1, 0x23),
  (29, 0x2320436861726163746572732030784443303020746f20307844434646),
  (1, 0x23),
  (0, 0x0),
  (1, 0x23),
  (29, 0x2320436861726163746572732030784530303020746f20307845304646),
  (1, 0x23),
  (0, 0x0),
  (1, 0x23),
  (29, 0x2320436861726163746572732030784639303020746f20307846394646),
  (1, 0x23),
  (0, 0x0),
  (47, 0x30784639303009094b617920092320434a4b20434f4d5041544942494c495459204944454f47524150482d46393030),
  (49, 0x30784639303109094b61796e6720092320434a4b20434f4d5041544942494c495459204944454f47524150482d46393031),
  (46, 0x30784639303209094b6520092320434a4b20434f4d5041544942494c495459204944454f47524150482d46393032),
  (46, 0x30784639303309094b6f20092320434a4b20434f4d5041544942494c495459204944454f47524150482d46393033),
  (47, 0x30784639303409094b6f6c20092320434a4b20434f4d5041544942494c495459204944454f47524150482d46393034),
  (47, 0x30784639303509094b6f6320092320434a4b20434f4d5041544942494c495459204944454f47524150482d46393035),
  (47, 0x30784639303609094b776920092320434a4b20434f4d5041544942494c495459204944454f47524150482d46393036),
  (47, 0x30784639303709094b776920092320434a4b20434f4d5041544942494c495459204944454f47524150482d46393037),
  (48, 0x30784639303809094b79756e20092320434a4b20434f4d5041544942494c495459204944454f47524150482d46393038)]

/-- Lines 8419-8518 of table/legacy/unidecode.tbl. -/
def legacy_unidecode_86 : List (Nat × Nat) := [
  (47, 0x30784639303909094b756c20092320434a4b20434f4d5041544942494c495459204944454f47524150482d46393039),
  (47, 0x30784639304109094b756d20092320434a4b20434f4d5041544942494c495459204944454f47524150482d46393041),
  (46, 0x30784639304209094e6120092320434a4b20434f4d5041544942494c495459204944454f47524150482d46393042),
  (46, 0x30784639304309094e6120092320434a4b20434f4d5041544942494c495459204944454f47524150482d46393043),
  (46, 0x30784639304409094e6120092320434a4b20434f4d5041544942494c495459204944454f47524150482d46393044),
  (46, 0x30784639304509094c6120092320434a4b20434f4d5041544942494c495459204944454f47524150482d46393045),
  (46, 0x30784639304609094e6120092320434a4b20434f4d5041544942494c495459204944454f47524150482d46393046),
  (0, 0x0),
  (46, 0x30784639313009094e6120092320434a4b20434f4d5041544942494c495459204944454f47524150482d46393130),
  (46, 0x30784639313109094e6120092320434a4b20434f4d5041544942494c495459204944454f47524150482d46393131),
  (46, 0x30784639313209094e6120092320434a4b20434f4d5041544942494c495459204944454f47524150482d46393132),
  (46, 0x30784639313309094e6120092320434a4b20434f4d5041544942494c495459204944454f47524150482d46393133),
  (47, 0x30784639313409094e616b20092320434a4b20434f4d5041544942494c495459204944454f47524150482d46393134),
  (47, 0x30784639313509094e616b20092320434a4b20434f4d5041544942494c495459204944454f47524150482d46393135),
  (47, 0x30784639313609094e616b20092320434a4b20434f4d5041544942494c495459204944454f47524150482d46393136),
  (47, 0x30784639313709094e616b20092320434a4b20434f4d5041544942494c495459204944454f47524150482d46393137),
  (47, 0x30784639313809094e616b20092320434a4b20434f4d5041544942494c495459204944454f47524150482d46393138),
  (47, 0x30784639313909094e616b20092320434a4b20434f4d5041544942494c495459204944454f47524150482d46393139),
  (47, 0x30784639314109094e616b20092320434a4b20434f4d5041544942494c495459204944454f47524150482d46393141),
  (47, 0x30784639314209094e616e20092320434a4b20434f4d5041544942494c495459204944454f47524150482d46393142),
  (47, 0x30784639314309094e616e20092320434a4b20434f4d5041544942494c495459204944454f47524150482d46393143),
  (47, 0x30784639314409094e616e20092320434a4b20434f4d5041544942494c495459204944454f47524150482d46393144),
  (47, 0x30784639314509094e616e20092320434a4b20434f4d5041544942494c495459204944454f47524150482d46393145),
  (47, 0x30784639314609094e616e20092320434a4b20434f4d5041544942494c495459204944454f47524150482d46393146),
  (0, 0x0),
  (47, 0x30784639323009094e616e20092320434a4b20434f4d5041544942494c495459204944454f47524150482d46393230),
  (47, 0x30784639323109094e616d20092320434a4b20434f4d5041544942494c495459204944454f47524150482d46393231),
  (47, 0x30784639323209094e616d20092320434a4b20434f4d5041544942494c495459204944454f47524150482d46393232),
  (47, 0x30784639323309094e616d20092320434a4b20434f4d5041544942494c495459204944454f47524150482d46393233),
  (47, 0x30784639323409094e616d20092320434a4b20434f4d5041544942494c495459204944454f47524150482d46393234),
  (47, 0x30784639323509094e617020092320434a4b20434f4d5041544942494c495459204944454f47524150482d46393235),
  (47, 0x30784639323609094e617020092320434a4b20434f4d5041544942494c495459204944454f47524150482d46393236),
  (47, 0x30784639323709094e617020092320434a4b20434f4d5041544942494c495459204944454f47524150482d46393237),
  (48, 0x30784639323809094e616e6720092320434a4b20434f4d5041544942494c495459204944454f47524150482d46393238),
  (48, 0x30784639323909094e616e6720092320434a4b20434f4d5041544942494c495459204944454f47524150482d46393239),
  (48, 0x30784639324109094e616e6720092320434a4b20434f4d5041544942494c495459204944454f47524150482d46393241),
  (48, 0x30784639324209094e616e6720092320434a4b20434f4d5041544942494c495459204944454f47524150482d46393242),
  (48, 0x30784639324309094e616e6720092320434a4b20434f4d5041544942494c495459204944454f47524150482d46393243),
  (47, 0x30784639324409094e617920092320434a4b20434f4d5041544942494c495459204944454f47524150482d46393244),
  (49, 0x30784639324509094e61796e6720092320434a4b20434f4d5041544942494c495459204944454f47524150482d46393245),
  (46, 0x30784639324609094e6f20092320434a4b20434f4d5041544942494c495459204944454f47524150482d46393246),
  (0, 0x0),
  (46, 0x30784639333009094e6f20092320434a4b20434f4d5041544942494c495459204944454f47524150482d46393330),
  (46, 0x30784639333109094e6f20092320434a4b20434f4d5041544942494c495459204944454f47524150482d46393331),
  (46, 0x30784639333209094e6f20092320434a4b20434f4d5041544942494c495459204944454f47524150482d46393332),
  (46, 0x30784639333309094e6f20092320434a4b20434f4d5041544942494c495459204944454f47524150482d46393333),
  (46, 0x30784639333409094e6f20092320434a4b20434f4d5041544942494c495459204944454f47524150482d46393334),
  (46, 0x30784639333509094e6f20092320434a4b20434f4d5041544942494c495459204944454f47524150482d46393335),
  (46, 0x30784639333609094e6f20092320434a4b20434f4d5041544942494c495459204944454f47524150482d46393336),
  (46, 0x30784639333709094e6f20092320434a4b20434f4d5041544942494c495459204944454f47524150482d46393337),
  (46, 0x30784639333809094e6f20092320434a4b20434f4d5041544942494c495459204944454f47524150482d46393338),
  (46, 0x30784639333909094e6f20092320434a4b20434f4d5041544942494c495459204944454f47524150482d46393339),
  (46, 0x30784639334109094e6f20092320434a4b20434f4d5041544942494c495459204944454f47524150482d46393341),
  (47, 0x30784639334209094e6f6b20092320434a4b20434f4d5041544942494c495459204944454f47524150482d46393342),
  (47, 0x30784639334309094e6f6b20092320434a4b20434f4d5041544942494c495459204944454f47524150482d46393343),
  (47, 0x30784639334409094e6f6b20092320434a4b20434f4d5041544942494c495459204944454f47524150482d46393344),
  (47, 0x30784639334509094e6f6b20092320434a4b20434f4d5041544942494c495459204944454f47524150482d46393345),
  (47, 0x30784639334609094e6f6b20092320434a4b20434f4d5041544942494c495459204944454f47524150482d46393346),
  (0, 0x0),
  (47, 0x30784639343009094e6f6b20092320434a4b20434f4d5041544942494c495459204944454f47524150482d46393430),
  (47, 0x30784639343109094e6f6e20092320434a4b20434f4d5041544942494c495459204944454f47524150482d46393431),
  (48, 0x30784639343209094e6f6e6720092320434a4b20434f4d5041544942494c495459204944454f47524150482d46393432),
  (48, 0x30784639343309094e6f6e6720092320434a4b20434f4d5041544942494c495459204944454f47524150482d46393433),
  (48, 0x30784639343409094e6f6e6720092320434a4b20434f4d5041544942494c495459204944454f47524150482d46393434),
  (48, 0x30784639343509094e6f6e6720092320434a4b20434f4d5041544942494c495459204944454f47524150482d46393435),
  (47, 0x30784639343609094e6f7920092320434a4b20434f4d5041544942494c495459204944454f47524150482d46393436),
  (47, 0x30784639343709094e6f7920092320434a4b20434f4d5041544942494c495459204944454f47524150482d46393437),
  (47, 0x30784639343809094e6f7920092320434a4b20434f4d5041544942494c495459204944454f47524150482d46393438),
  (47, 0x30784639343909094e6f7920092320434a4b20434f4d5041544942494c495459204944454f47524150482d46393439),
  (47, 0x30784639344109094e777520092320434a4b20434f4d5041544942494c495459204944454f47524150482d46393441),
  (47, 0x30784639344209094e777520092320434a4b20434f4d5041544942494c495459204944454f47524150482d46393442),
  (47, 0x30784639344309094e777520092320434a4b20434f4d5041544942494c495459204944454f47524150482d46393443),
  (47, 0x30784639344409094e777520092320434a4b20434f4d5041544942494c495459204944454f47524150482d46393444),
  (47, 0x30784639344509094e777520092320434a4b20434f4d5041544942494c495459204944454f47524150482d46393445),
  (47, 0x30784639344609094e777520092320434a4b20434f4d5041544942494c495459204944454f47524150482d46393446),
  (0, 0x0),
  (47, 0x30784639353009094e777520092320434a4b20434f4d5041544942494c495459204944454f47524150482d46393530),
  (47, 0x30784639353109094e777520092320434a4b20434f4d5041544942494c495459204944454f47524150482d46393531),
  (47, 0x30784639353209094e756b20092320434a4b20434f4d5041544942494c495459204944454f47524150482d46393532),
  (47, 0x30784639353309094e756b20092320434a4b20434f4d5041544942494c495459204944454f47524150482d46393533),
  (47, 0x30784639353409094e756d20092320434a4b20434f4d5041544942494c495459204944454f47524150482d46393534),
  (48, 0x30784639353509094e756e6720092320434a4b20434f4d5041544942494c495459204944454f47524150482d46393535),
  (48, 0x30784639353609094e756e6720092320434a4b20434f4d5041544942494c495459204944454f47524150482d46393536),
  (48, 0x30784639353709094e756e6720092320434a4b20434f4d5041544942494c495459204944454f47524150482d46393537),
  (48, 0x30784639353809094e756e6720092320434a4b20434f4d5041544942494c495459204944454f47524150482d46393538),
  (48, 0x30784639353909094e756e6720092320434a4b20434f4d5041544942494c495459204944454f47524150482d46393539),
  (47, 0x307846393541090954777520092320434a4b20434f4d5041544942494c495459204944454f47524150482d46393541),
  (46, 0x30784639354209094c6120092320434a4b20434f4d5041544942494c495459204944454f47524150482d46393542),
  (47, 0x30784639354309094c616b20092320434a4b20434f4d5041544942494c495459204944454f47524150482d46393543),
  (47, 0x30784639354409094c616b20092320434a4b20434f4d5041544942494c495459204944454f47524150482d46393544),
  (47, 0x30784639354509094c616e20092320434a4b20434f4d5041544942494c495459204944454f47524150482d46393545),
  (49, 0x30784639354609094c79656e6720092320434a4b20434f4d5041544942494c495459204944454f47524150482d46393546),
  (0, 0x0),
  (46, 0x30784639363009094c6f20092320434a4b20434f4d5041544942494c495459204944454f47524150482d46393630),
  (48, 0x30784639363109094c79756c20092320434a4b20434f4d5041544942494c495459204944454f47524150482d46393631),
  (46, 0x30784639363209094c6920092320434a4b20434f4d5041544942494c495459204944454f47524150482d46393632),
  (47, 0x307846393633090950657920092320434a4b20434f4d5041544942494c495459204944454f47524150482d46393633),
  (47, 0x307846393634090950656e20092320434a4b20434f4d5041544942494c495459204944454f47524150482d46393634),
  (48, 0x30784639363509095079656e20092320434a4b20434f4d5041544942494c495459204944454f47524150482d46393635),
  (47, 0x307846393636090950777520092320434a4b20434f4d5041544942494c495459204944454f47524150482d46393636)]

/-- Lines 8519-8618 of table/legacy/unidecode.tbl. -/
def legacy_unidecode_87 : List (Nat × Nat) := [
  (48, 0x30784639363709095077756c20092320434a4b20434f4d5041544942494c495459204944454f47524150482d46393637),
  (46, 0x3078463936380909506920092320434a4b20434f4d5041544942494c495459204944454f47524150482d46393638),
  (47, 0x307846393639090953616b20092320434a4b20434f4d5041544942494c495459204944454f47524150482d46393639),
  (47, 0x307846393641090953616b20092320434a4b20434f4d5041544942494c495459204944454f47524150482d46393641),
  (47, 0x307846393642090953616d20092320434a4b20434f4d5041544942494c495459204944454f47524150482d46393642),
  (48, 0x30784639364309095361796b20092320434a4b20434f4d5041544942494c495459204944454f47524150482d46393643),
  (49, 0x30784639364409095361796e6720092320434a4b20434f4d5041544942494c495459204944454f47524150482d46393644),
  (47, 0x307846393645090953657020092320434a4b20434f4d5041544942494c495459204944454f47524150482d46393645),
  (47, 0x307846393646090953657920092320434a4b20434f4d5041544942494c495459204944454f47524150482d46393646),
  (0, 0x0),
  (48, 0x30784639373009095377617920092320434a4b20434f4d5041544942494c495459204944454f47524150482d46393730),
  (47, 0x307846393731090953696e20092320434a4b20434f4d5041544942494c495459204944454f47524150482d46393731),
  (47, 0x307846393732090953696d20092320434a4b20434f4d5041544942494c495459204944454f47524150482d46393732),
  (47, 0x307846393733090953697020092320434a4b20434f4d5041544942494c495459204944454f47524150482d46393733),
  (46, 0x3078463937340909596120092320434a4b20434f4d5041544942494c495459204944454f47524150482d46393734),
  (47, 0x307846393735090959616b20092320434a4b20434f4d5041544942494c495459204944454f47524150482d46393735),
  (47, 0x307846393736090959616b20092320434a4b20434f4d5041544942494c495459204944454f47524150482d46393736),
  (48, 0x307846393737090959616e6720092320434a4b20434f4d5041544942494c495459204944454f47524150482d46393737),
  (48, 0x307846393738090959616e6720092320434a4b20434f4d5041544942494c495459204944454f47524150482d46393738),
  (48, 0x307846393739090959616e6720092320434a4b20434f4d5041544942494c495459204944454f47524150482d46393739),
  (48, 0x307846393741090959616e6720092320434a4b20434f4d5041544942494c495459204944454f47524150482d46393741),
  (48, 0x307846393742090959616e6720092320434a4b20434f4d5041544942494c495459204944454f47524150482d46393742),
  (48, 0x307846393743090959616e6720092320434a4b20434f4d5041544942494c495459204944454f47524150482d46393743),
  (48, 0x307846393744090959616e6720092320434a4b20434f4d5041544942494c495459204944454f47524150482d46393744),
  (48, 0x307846393745090959616e6720092320434a4b20434f4d5041544942494c495459204944454f47524150482d46393745),
  (46, 0x3078463937460909596520092320434a4b20434f4d5041544942494c495459204944454f47524150482d46393746),
  (0, 0x0),
  (46, 0x3078463938300909596520092320434a4b20434f4d5041544942494c495459204944454f47524150482d46393830),
  (46, 0x3078463938310909596520092320434a4b20434f4d5041544942494c495459204944454f47524150482d46393831),
  (46, 0x3078463938320909596520092320434a4b20434f4d5041544942494c495459204944454f47524150482d46393832),
  (46, 0x3078463938330909596520092320434a4b20434f4d5041544942494c495459204944454f47524150482d46393833),
  (46, 0x3078463938340909596520092320434a4b20434f4d5041544942494c495459204944454f47524150482d46393834),
  (46, 0x3078463938350909596520092320434a4b20434f4d5041544942494c495459204944454f47524150482d46393835),
  (46, 0x3078463938360909596520092320434a4b20434f4d5041544942494c495459204944454f47524150482d46393836),
  (46, 0x3078463938370909596520092320434a4b20434f4d5041544942494c495459204944454f47524150482d46393837),
  (46, 0x3078463938380909596520092320434a4b20434f4d5041544942494c495459204944454f47524150482d46393838),
  (46, 0x3078463938390909596520092320434a4b20434f4d5041544942494c495459204944454f47524150482d46393839),
  (47, 0x307846393841090959656b20092320434a4b20434f4d5041544942494c495459204944454f47524150482d46393841),
  (47, 0x307846393842090959656b20092320434a4b20434f4d5041544942494c495459204944454f47524150482d46393842),
  (47, 0x307846393843090959656b20092320434a4b20434f4d5041544942494c495459204944454f47524150482d46393843),
  (47, 0x307846393844090959656b20092320434a4b20434f4d5041544942494c495459204944454f47524150482d46393844),
  (47, 0x307846393845090959656e20092320434a4b20434f4d5041544942494c495459204944454f47524150482d46393845),
  (47, 0x307846393846090959656e20092320434a4b20434f4d5041544942494c495459204944454f47524150482d46393846),
  (0, 0x0),
  (47, 0x307846393930090959656e20092320434a4b20434f4d5041544942494c495459204944454f47524150482d46393930),
  (47, 0x307846393931090959656e20092320434a4b20434f4d5041544942494c495459204944454f47524150482d46393931),
  (47, 0x307846393932090959656e20092320434a4b20434f4d5041544942494c495459204944454f47524150482d46393932),
  (47, 0x307846393933090959656e20092320434a4b20434f4d5041544942494c495459204944454f47524150482d46393933),
  (47, 0x307846393934090959656e20092320434a4b20434f4d5041544942494c495459204944454f47524150482d46393934),
  (47, 0x307846393935090959656e20092320434a4b20434f4d5041544942494c495459204944454f47524150482d46393935),
  (47, 0x307846393936090959656e20092320434a4b20434f4d5041544942494c495459204944454f47524150482d46393936),
  (47, 0x307846393937090959656e20092320434a4b20434f4d5041544942494c495459204944454f47524150482d46393937),
  (47, 0x307846393938090959656e20092320434a4b20434f4d5041544942494c495459204944454f47524150482d46393938),
  (47, 0x307846393939090959656e20092320434a4b20434f4d5041544942494c495459204944454f47524150482d46393939),
  (47, 0x307846393941090959656e20092320434a4b20434f4d5041544942494c495459204944454f47524150482d46393941),
  (47, 0x307846393942090959656e20092320434a4b20434f4d5041544942494c495459204944454f47524150482d46393942),
  (47, 0x307846393943090959656c20092320434a4b20434f4d5041544942494c495459204944454f47524150482d46393943),
  (47, 0x307846393944090959656c20092320434a4b20434f4d5041544942494c495459204944454f47524150482d46393944),
  (47, 0x307846393945090959656c20092320434a4b20434f4d5041544942494c495459204944454f47524150482d46393945),
  (47, 0x307846393946090959656c20092320434a4b20434f4d5041544942494c495459204944454f47524150482d46393946),
  (0, 0x0),
  (47, 0x307846394130090959656c20092320434a4b20434f4d5041544942494c495459204944454f47524150482d46394130),
  (47, 0x307846394131090959656c20092320434a4b20434f4d5041544942494c495459204944454f47524150482d46394131),
  (47, 0x307846394132090959656d20092320434a4b20434f4d5041544942494c495459204944454f47524150482d46394132),
  (47, 0x307846394133090959656d20092320434a4b20434f4d5041544942494c495459204944454f47524150482d46394133),
  (47, 0x307846394134090959656d20092320434a4b20434f4d5041544942494c495459204944454f47524150482d46394134),
  (47, 0x307846394135090959656d20092320434a4b20434f4d5041544942494c495459204944454f47524150482d46394135),
  (47, 0x307846394136090959656d20092320434a4b20434f4d5041544942494c495459204944454f47524150482d46394136),
  (47, 0x307846394137090959657020092320434a4b20434f4d5041544942494c495459204944454f47524150482d46394137),
  (48, 0x307846394138090959656e6720092320434a4b20434f4d5041544942494c495459204944454f47524150482d46394138),
  (48, 0x307846394139090959656e6720092320434a4b20434f4d5041544942494c495459204944454f47524150482d46394139),
  (48, 0x307846394141090959656e6720092320434a4b20434f4d5041544942494c495459204944454f47524150482d46394141),
  (48, 0x307846394142090959656e6720092320434a4b20434f4d5041544942494c495459204944454f47524150482d46394142),
  (48, 0x307846394143090959656e6720092320434a4b20434f4d5041544942494c495459204944454f47524150482d46394143),
  (48, 0x307846394144090959656e6720092320434a4b20434f4d5041544942494c495459204944454f47524150482d46394144),
  (48, 0x307846394145090959656e6720092320434a4b20434f4d5041544942494c495459204944454f47524150482d46394145),
  (48, 0x307846394146090959656e6720092320434a4b20434f4d5041544942494c495459204944454f47524150482d46394146),
  (0, 0x0),
  (48, 0x307846394230090959656e6720092320434a4b20434f4d5041544942494c495459204944454f47524150482d46394230),
  (48, 0x307846394231090959656e6720092320434a4b20434f4d5041544942494c495459204944454f47524150482d46394231),
  (48, 0x307846394232090959656e6720092320434a4b20434f4d5041544942494c495459204944454f47524150482d46394232),
  (48, 0x307846394233090959656e6720092320434a4b20434f4d5041544942494c495459204944454f47524150482d46394233),
  (48, 0x307846394234090959656e6720092320434a4b20434f4d5041544942494c495459204944454f47524150482d46394234),
  (47, 0x307846394235090959657920092320434a4b20434f4d5041544942494c495459204944454f47524150482d46394235),
  (47, 0x307846394236090959657920092320434a4b20434f4d5041544942494c495459204944454f47524150482d46394236),
  (47, 0x307846394237090959657920092320434a4b20434f4d5041544942494c495459204944454f47524150482d46394237),
  (47, 0x307846394238090959657920092320434a4b20434f4d5041544942494c495459204944454f47524150482d46394238),
  (45, 0x30784639423909094f20092320434a4b20434f4d5041544942494c495459204944454f47524150482d46394239),
  (46, 0x3078463942410909596f20092320434a4b20434f4d5041544942494c495459204944454f47524150482d46394241),
  (46, 0x3078463942420909596f20092320434a4b20434f4d5041544942494c495459204944454f47524150482d46394242),
  (46, 0x3078463942430909596f20092320434a4b20434f4d5041544942494c495459204944454f47524150482d46394243),
  (46, 0x3078463942440909596f20092320434a4b20434f4d5041544942494c495459204944454f47524150482d46394244),
  (46, 0x3078463942450909596f20092320434a4b20434f4d5041544942494c495459204944454f47524150482d46394245),
  (46, 0x3078463942460909596f20092320434a4b20434f4d5041544942494c495459204944454f47524150482d46394246),
  (0, 0x0),
  (46, 0x3078463943300909596f20092320434a4b20434f4d5041544942494c495459204944454f47524150482d46394330),
  (46, 0x3078463943310909596f20092320434a4b20434f4d5041544942494c495459204944454f47524150482d46394331),
  (46, 0x3078463943320909596f20092320434a4b20434f4d5041544942494c495459204944454f47524150482d46394332),
  (46, 0x3078463943330909596f20092320434a4b20434f4d5041544942494c495459204944454f47524150482d46394333),
  (48, 0x3078463943340909596f6e6720092320434a4b20434f4d5041544942494c495459204944454f47524150482d46394334)]

/-- Lines 8619-8718 of table/legacy/unidecode.tbl. -/
def legacy_unidecode_88 : List (Nat × Nat) := [
  (47, 0x307846394335090957756e20092320434a4b20434f4d5041544942494c495459204944454f47524150482d46394335),
  (47, 0x307846394336090957656e20092320434a4b20434f4d5041544942494c495459204944454f47524150482d46394336),
  (46, 0x3078463943370909597520092320434a4b20434f4d5041544942494c495459204944454f47524150482d46394337),
  (46, 0x3078463943380909597520092320434a4b20434f4d5041544942494c495459204944454f47524150482d46394338),
  (46, 0x3078463943390909597520092320434a4b20434f4d5041544942494c495459204944454f47524150482d46394339),
  (46, 0x3078463943410909597520092320434a4b20434f4d5041544942494c495459204944454f47524150482d46394341),
  (46, 0x3078463943420909597520092320434a4b20434f4d5041544942494c495459204944454f47524150482d46394342),
  (46, 0x3078463943430909597520092320434a4b20434f4d5041544942494c495459204944454f47524150482d46394343),
  (46, 0x3078463943440909597520092320434a4b20434f4d5041544942494c495459204944454f47524150482d46394344),
  (46, 0x3078463943450909597520092320434a4b20434f4d5041544942494c495459204944454f47524150482d46394345),
  (46, 0x3078463943460909597520092320434a4b20434f4d5041544942494c495459204944454f47524150482d46394346),
  (0, 0x0),
  (46, 0x3078463944300909597520092320434a4b20434f4d5041544942494c495459204944454f47524150482d46394430),
  (47, 0x307846394431090959756b20092320434a4b20434f4d5041544942494c495459204944454f47524150482d46394431),
  (47, 0x307846394432090959756b20092320434a4b20434f4d5041544942494c495459204944454f47524150482d46394432),
  (47, 0x307846394433090959756b20092320434a4b20434f4d5041544942494c495459204944454f47524150482d46394433),
  (47, 0x307846394434090959756e20092320434a4b20434f4d5041544942494c495459204944454f47524150482d46394434),
  (47, 0x307846394435090959756e20092320434a4b20434f4d5041544942494c495459204944454f47524150482d46394435),
  (47, 0x307846394436090959756e20092320434a4b20434f4d5041544942494c495459204944454f47524150482d46394436),
  (47, 0x307846394437090959756e20092320434a4b20434f4d5041544942494c495459204944454f47524150482d46394437),
  (47, 0x307846394438090959756c20092320434a4b20434f4d5041544942494c495459204944454f47524150482d46394438),
  (47, 0x307846394439090959756c20092320434a4b20434f4d5041544942494c495459204944454f47524150482d46394439),
  (47, 0x307846394441090959756c20092320434a4b20434f4d5041544942494c495459204944454f47524150482d46394441),
  (47, 0x307846394442090959756c20092320434a4b20434f4d5041544942494c495459204944454f47524150482d46394442),
  (48, 0x307846394443090959756e6720092320434a4b20434f4d5041544942494c495459204944454f47524150482d46394443),
  (45, 0x30784639444409094920092320434a4b20434f4d5041544942494c495459204944454f47524150482d46394444),
  (45, 0x30784639444509094920092320434a4b20434f4d5041544942494c495459204944454f47524150482d46394445),
  (45, 0x30784639444609094920092320434a4b20434f4d5041544942494c495459204944454f47524150482d46394446),
  (0, 0x0),
  (45, 0x30784639453009094920092320434a4b20434f4d5041544942494c495459204944454f47524150482d46394530),
  (45, 0x30784639453109094920092320434a4b20434f4d5041544942494c495459204944454f47524150482d46394531),
  (45, 0x30784639453209094920092320434a4b20434f4d5041544942494c495459204944454f47524150482d46394532),
  (45, 0x30784639453309094920092320434a4b20434f4d5041544942494c495459204944454f47524150482d46394533),
  (45, 0x30784639453409094920092320434a4b20434f4d5041544942494c495459204944454f47524150482d46394534),
  (45, 0x30784639453509094920092320434a4b20434f4d5041544942494c495459204944454f47524150482d46394535),
  (45, 0x30784639453609094920092320434a4b20434f4d5041544942494c495459204944454f47524150482d46394536),
  (45, 0x30784639453709094920092320434a4b20434f4d5041544942494c495459204944454f47524150482d46394537),
  (45, 0x30784639453809094920092320434a4b20434f4d5041544942494c495459204944454f47524150482d46394538),
  (45, 0x30784639453909094920092320434a4b20434f4d5041544942494c495459204944454f47524150482d46394539),
  (45, 0x30784639454109094920092320434a4b20434f4d5041544942494c495459204944454f47524150482d46394541),
  (46, 0x3078463945420909496b20092320434a4b20434f4d5041544942494c495459204944454f47524150482d46394542),
  (46, 0x3078463945430909496b20092320434a4b20434f4d5041544942494c495459204944454f47524150482d46394543),
  (46, 0x3078463945440909496e20092320434a4b20434f4d5041544942494c495459204944454f47524150482d46394544),
  (46, 0x3078463945450909496e20092320434a4b20434f4d5041544942494c495459204944454f47524150482d46394545),
  (46, 0x3078463945460909496e20092320434a4b20434f4d5041544942494c495459204944454f47524150482d46394546),
  (0, 0x0),
  (46, 0x3078463946300909496e20092320434a4b20434f4d5041544942494c495459204944454f47524150482d46394630),
  (46, 0x3078463946310909496e20092320434a4b20434f4d5041544942494c495459204944454f47524150482d46394631),
  (46, 0x3078463946320909496e20092320434a4b20434f4d5041544942494c495459204944454f47524150482d46394632),
  (46, 0x3078463946330909496e20092320434a4b20434f4d5041544942494c495459204944454f47524150482d46394633),
  (46, 0x3078463946340909496d20092320434a4b20434f4d5041544942494c495459204944454f47524150482d46394634),
  (46, 0x3078463946350909496d20092320434a4b20434f4d5041544942494c495459204944454f47524150482d46394635),
  (46, 0x3078463946360909496d20092320434a4b20434f4d5041544942494c495459204944454f47524150482d46394636),
  (46, 0x3078463946370909497020092320434a4b20434f4d5041544942494c495459204944454f47524150482d46394637),
  (46, 0x3078463946380909497020092320434a4b20434f4d5041544942494c495459204944454f47524150482d46394638),
  (46, 0x3078463946390909497020092320434a4b20434f4d5041544942494c495459204944454f47524150482d46394639),
  (48, 0x307846394641090943616e6720092320434a4b20434f4d5041544942494c495459204944454f47524150482d46394641),
  (47, 0x307846394642090943656b20092320434a4b20434f4d5041544942494c495459204944454f47524150482d46394642),
  (46, 0x3078463946430909436920092320434a4b20434f4d5041544942494c495459204944454f47524150482d46394643),
  (47, 0x307846394644090943697020092320434a4b20434f4d5041544942494c495459204944454f47524150482d46394644),
  (47, 0x307846394645090943686120092320434a4b20434f4d5041544942494c495459204944454f47524150482d46394645),
  (48, 0x30784639464609094368656b20092320434a4b20434f4d5041544942494c495459204944454f47524150482d46394646),
  (0, 0x0),
  (1, 0x23),
  (29, 0x2320436861726163746572732030784641303020746f20307846414646),
  (1, 0x23),
  (0, 0x0),
  (48, 0x30784641303009094368657920092320434a4b20434f4d5041544942494c495459204944454f47524150482d46413030),
  (48, 0x30784641303109095468616b20092320434a4b20434f4d5041544942494c495459204944454f47524150482d46413031),
  (48, 0x30784641303209095468616b20092320434a4b20434f4d5041544942494c495459204944454f47524150482d46413032),
  (49, 0x30784641303309095468616e6720092320434a4b20434f4d5041544942494c495459204944454f47524150482d46413033),
  (49, 0x3078464130340909546861796b20092320434a4b20434f4d5041544942494c495459204944454f47524150482d46413034),
  (49, 0x307846413035090954686f6e6720092320434a4b20434f4d5041544942494c495459204944454f47524150482d46413035),
  (47, 0x307846413036090950686f20092320434a4b20434f4d5041544942494c495459204944454f47524150482d46413036),
  (48, 0x307846413037090950686f6b20092320434a4b20434f4d5041544942494c495459204944454f47524150482d46413037),
  (48, 0x307846413038090948616e6720092320434a4b20434f4d5041544942494c495459204944454f47524150482d46413038),
  (48, 0x307846413039090948616e6720092320434a4b20434f4d5041544942494c495459204944454f47524150482d46413039),
  (48, 0x30784641304109094879656e20092320434a4b20434f4d5041544942494c495459204944454f47524150482d46413041),
  (48, 0x30784641304209094877616b20092320434a4b20434f4d5041544942494c495459204944454f47524150482d46413042),
  (46, 0x3078464130430909577520092320434a4b20434f4d5041544942494c495459204944454f47524150482d46413043),
  (47, 0x307846413044090948756f20092320434a4b20434f4d5041544942494c495459204944454f47524150482d46413044),
  (0, 0x0),
  (49, 0x30784641313009095a686f6e6720092320434a4b20434f4d5041544942494c495459204944454f47524150482d46413130),
  (48, 0x307846413132090951696e6720092320434a4b20434f4d5041544942494c495459204944454f47524150482d46413132),
  (46, 0x3078464131350909586920092320434a4b20434f4d5041544942494c495459204944454f47524150482d46413135),
  (47, 0x30784641313609095a687520092320434a4b20434f4d5041544942494c495459204944454f47524150482d46413136),
  (46, 0x3078464131370909596920092320434a4b20434f4d5041544942494c495459204944454f47524150482d46413137),
  (46, 0x30784641313809094c6920092320434a4b20434f4d5041544942494c495459204944454f47524150482d46413138),
  (48, 0x30784641313909095368656e20092320434a4b20434f4d5041544942494c495459204944454f47524150482d46413139),
  (49, 0x30784641314109095869616e6720092320434a4b20434f4d5041544942494c495459204944454f47524150482d46413141),
  (46, 0x3078464131420909467520092320434a4b20434f4d5041544942494c495459204944454f47524150482d46413142),
  (48, 0x30784641314309094a696e6720092320434a4b20434f4d5041544942494c495459204944454f47524150482d46413143),
  (48, 0x30784641314409094a696e6720092320434a4b20434f4d5041544942494c495459204944454f47524150482d46413144),
  (46, 0x3078464131450909597520092320434a4b20434f4d5041544942494c495459204944454f47524150482d46413145),
  (0, 0x0),
  (48, 0x30784641323009094861676920092320434a4b20434f4d5041544942494c495459204944454f47524150482d46413230),
  (47, 0x30784641323209095a687520092320434a4b20434f4d5041544942494c495459204944454f47524150482d46413232),
  (46, 0x3078464132350909596920092320434a4b20434f4d5041544942494c495459204944454f47524150482d46413235),
  (46, 0x3078464132360909447520092320434a4b20434f4d5041544942494c495459204944454f47524150482d46413236),
  (47, 0x307846413241090946616e20092320434a4b20434f4d5041544942494c495459204944454f47524150482d46413241)]

/-- Lines 8719-8818 of table/legacy/unidecode.tbl. -/
def legacy_unidecode_89 : List (Nat × Nat) := [
  (46, 0x3078464132420909536920092320434a4b20434f4d5041544942494c495459204944454f47524150482d46413242),
  (48, 0x30784641324309094775616e20092320434a4b20434f4d5041544942494c495459204944454f47524150482d46413243),
  (0, 0x0),
  (1, 0x23),
  (29, 0x2320436861726163746572732030784642303020746f20307846424646),
  (1, 0x23),
  (0, 0x0),
  (36, 0x307846423030090966660923204c4154494e20534d414c4c204c49474154555245204646),
  (36, 0x307846423031090966690923204c4154494e20534d414c4c204c49474154555245204649),
  (36, 0x3078464230320909666c0923204c4154494e20534d414c4c204c4947415455524520464c),
  (38, 0x30784642303309096666690923204c4154494e20534d414c4c204c4947415455524520464649),
  (38, 0x307846423034090966666c0923204c4154494e20534d414c4c204c494741545552452046464c),
  (42, 0x307846423035090973740923204c4154494e20534d414c4c204c49474154555245204c4f4e4720532054),
  (36, 0x307846423036090973740923204c4154494e20534d414c4c204c49474154555245205354),
  (44, 0x30784642313309096d6e09232041524d454e49414e20534d414c4c204c49474154555245204d454e204e4f57),
  (44, 0x30784642313409096d6509232041524d454e49414e20534d414c4c204c49474154555245204d454e20454348),
  (44, 0x30784642313509096d6909232041524d454e49414e20534d414c4c204c49474154555245204d454e20494e49),
  (44, 0x3078464231360909766e09232041524d454e49414e20534d414c4c204c4947415455524520564557204e4f57),
  (45, 0x30784642313709096d6b6809232041524d454e49414e20534d414c4c204c49474154555245204d454e20584548),
  (41, 0x30784642314409097969092320484542524557204c455454455220594f442057495448204849524951),
  (50, 0x30784642314609096179092320484542524557204c49474154555245205949444449534820594f4420594f44205041544148),
  (0, 0x0),
  (42, 0x307846423230090960092320484542524557204c455454455220414c5445524e4154495645204159494e),
  (36, 0x307846423232090964092320484542524557204c455454455220574944452044414c4554),
  (33, 0x307846423233090968092320484542524557204c45545445522057494445204845),
  (34, 0x30784642323409096b092320484542524557204c45545445522057494445204b4146),
  (36, 0x30784642323509096c092320484542524557204c45545445522057494445204c414d4544),
  (40, 0x30784642323609096d092320484542524557204c455454455220574944452046494e414c204d454d),
  (35, 0x30784642323709096d092320484542524557204c455454455220574944452052455348),
  (34, 0x307846423238090974092320484542524557204c4554544552205749444520544156),
  (47, 0x30784642323909092b092320484542524557204c455454455220414c5445524e415449564520504c5553205349474e),
  (45, 0x30784642324109097368092320484542524557204c4554544552205348494e2057495448205348494e20444f54),
  (43, 0x307846423242090973092320484542524557204c4554544552205348494e20574954482053494e20444f54),
  (56, 0x30784642324309097368092320484542524557204c4554544552205348494e20574954482044414745534820414e44205348494e20444f54),
  (54, 0x307846423244090973092320484542524557204c4554544552205348494e20574954482044414745534820414e442053494e20444f54),
  (41, 0x307846423245090961092320484542524557204c455454455220414c45462057495448205041544148),
  (42, 0x307846423246090961092320484542524557204c455454455220414c454620574954482051414d415453),
  (0, 0x0),
  (41, 0x307846423331090962092320484542524557204c455454455220424554205749544820444147455348),
  (43, 0x307846423332090967092320484542524557204c45545445522047494d454c205749544820444147455348),
  (43, 0x307846423333090964092320484542524557204c45545445522044414c4554205749544820444147455348),
  (39, 0x307846423334090968092320484542524557204c45545445522048452057495448204d41504951),
  (41, 0x307846423335090976092320484542524557204c455454455220564156205749544820444147455348),
  (43, 0x30784642333609097a092320484542524557204c4554544552205a4159494e205749544820444147455348),
  (41, 0x307846423338090974092320484542524557204c455454455220544554205749544820444147455348),
  (41, 0x307846423339090979092320484542524557204c455454455220594f44205749544820444147455348),
  (47, 0x30784642334109096b092320484542524557204c45545445522046494e414c204b4146205749544820444147455348),
  (41, 0x30784642334209096b092320484542524557204c4554544552204b4146205749544820444147455348),
  (43, 0x30784642334309096c092320484542524557204c4554544552204c414d4544205749544820444147455348),
  (41, 0x30784642334509096c092320484542524557204c4554544552204d454d205749544820444147455348),
  (0, 0x0),
  (41, 0x30784642343009096e092320484542524557204c4554544552204e554e205749544820444147455348),
  (44, 0x30784642343109096e092320484542524557204c45545445522053414d454b48205749544820444147455348),
  (46, 0x307846423433090970092320484542524557204c45545445522046494e414c205045205749544820444147455348),
  (40, 0x307846423434090970092320484542524557204c4554544552205045205749544820444147455348),
  (44, 0x30784642343609097473092320484542524557204c4554544552205453414449205749544820444147455348),
  (42, 0x30784642343709097473092320484542524557204c455454455220514f46205749544820444147455348),
  (42, 0x307846423438090972092320484542524557204c45545445522052455348205749544820444147455348),
  (43, 0x30784642343909097368092320484542524557204c4554544552205348494e205749544820444147455348),
  (41, 0x307846423441090974092320484542524557204c455454455220544156205749544820444147455348),
  (41, 0x3078464234420909766f092320484542524557204c455454455220564156205749544820484f4c414d),
  (39, 0x307846423443090962092320484542524557204c45545445522042455420574954482052414645),
  (39, 0x30784642344409096b092320484542524557204c4554544552204b414620574954482052414645),
  (38, 0x307846423445090970092320484542524557204c455454455220504520574954482052414645),
  (38, 0x30784642344609096c092320484542524557204c4947415455524520414c4546204c414d4544),
  (0, 0x0),
  (1, 0x23),
  (29, 0x2320436861726163746572732030784643303020746f20307846434646),
  (1, 0x23),
  (0, 0x0),
  (1, 0x23),
  (29, 0x2320436861726163746572732030784644303020746f20307846444646),
  (1, 0x23),
  (0, 0x0),
  (1, 0x23),
  (29, 0x2320436861726163746572732030784645303020746f20307846454646),
  (1, 0x23),
  (0, 0x0),
  (58, 0x30784645313609095b3f5d09232050524553454e544154494f4e20464f524d20464f5220564552544943414c205155455354494f4e204d41524b),
  (0, 0x0),
  (45, 0x30784645323309097e092320434f4d42494e494e4720444f55424c452054494c44452052494748542048414c46),
  (0, 0x0),
  (58, 0x30784645333009092e2e09232050524553454e544154494f4e20464f524d20464f5220564552544943414c2054574f20444f54204c4541444552),
  (51, 0x30784645333109092d2d09232050524553454e544154494f4e20464f524d20464f5220564552544943414c20454d2044415348),
  (50, 0x30784645333209092d09232050524553454e544154494f4e20464f524d20464f5220564552544943414c20454e2044415348),
  (51, 0x30784645333309095f09232050524553454e544154494f4e20464f524d20464f5220564552544943414c204c4f57204c494e45),
  (56, 0x30784645333409095f09232050524553454e544154494f4e20464f524d20464f5220564552544943414c2057415659204c4f57204c494e45),
  (59, 0x30784645333509092809232050524553454e544154494f4e20464f524d20464f5220564552544943414c204c45465420504152454e544845534953),
  (61, 0x3078464533360909292009232050524553454e544154494f4e20464f524d20464f5220564552544943414c20524947485420504152454e544845534953),
  (61, 0x30784645333709097b09232050524553454e544154494f4e20464f524d20464f5220564552544943414c204c454654204355524c5920425241434b4554),
  (63, 0x30784645333809097d2009232050524553454e544154494f4e20464f524d20464f5220564552544943414c205249474854204355524c5920425241434b4554),
  (70, 0x30784645333909095b09232050524553454e544154494f4e20464f524d20464f5220564552544943414c204c45465420544f52544f495345205348454c4c20425241434b4554),
  (72, 0x30784645334109095d2009232050524553454e544154494f4e20464f524d20464f5220564552544943414c20524947485420544f52544f495345205348454c4c20425241434b4554),
  (73, 0x30784645334209095b2809232050524553454e544154494f4e20464f524d20464f5220564552544943414c204c45465420424c41434b204c454e544943554c415220425241434b4554),
  (75, 0x3078464533430909295d2009232050524553454e544154494f4e20464f524d20464f5220564552544943414c20524947485420424c41434b204c454e544943554c415220425241434b4554),
  (69, 0x30784645334409093c3c09232050524553454e544154494f4e20464f524d20464f5220564552544943414c204c45465420444f55424c4520414e474c4520425241434b4554),
  (71, 0x30784645334509093e3e2009232050524553454e544154494f4e20464f524d20464f5220564552544943414c20524947485420444f55424c4520414e474c4520425241434b4554),
  (61, 0x30784645334609093c09232050524553454e544154494f4e20464f524d20464f5220564552544943414c204c45465420414e474c4520425241434b4554),
  (0, 0x0),
  (63, 0x30784645343009093e2009232050524553454e544154494f4e20464f524d20464f5220564552544943414c20524947485420414e474c4520425241434b4554)]

/-- Lines 8819-8918 of table/legacy/unidecode.tbl. -/
def legacy_unidecode_90 : List (Nat × Nat) := [
  (62, 0x30784645343109095b09232050524553454e544154494f4e20464f524d20464f5220564552544943414c204c45465420434f524e455220425241434b4554),
  (64, 0x30784645343209095d2009232050524553454e544154494f4e20464f524d20464f5220564552544943414c20524947485420434f524e455220425241434b4554),
  (68, 0x30784645343309097b09232050524553454e544154494f4e20464f524d20464f5220564552544943414c204c45465420574849544520434f524e455220425241434b4554),
  (69, 0x30784645343409097d09232050524553454e544154494f4e20464f524d20464f5220564552544943414c20524947485420574849544520434f524e455220425241434b4554),
  (0, 0x0),
  (23, 0x30784645353009092c092320534d414c4c20434f4d4d41),
  (35, 0x30784645353109092c092320534d414c4c204944454f4752415048494320434f4d4d41),
  (27, 0x30784645353209092e092320534d414c4c2046554c4c2053544f50),
  (27, 0x30784645353409093b092320534d414c4c2053454d49434f4c4f4e),
  (23, 0x30784645353509093a092320534d414c4c20434f4c4f4e),
  (31, 0x30784645353609093f092320534d414c4c205155455354494f4e204d41524b),
  (34, 0x307846453537090921092320534d414c4c204558434c414d4154494f4e204d41524b),
  (25, 0x30784645353809092d092320534d414c4c20454d2044415348),
  (34, 0x307846453539090928092320534d414c4c204c45465420504152454e544845534953),
  (35, 0x307846453541090929092320534d414c4c20524947485420504152454e544845534953),
  (36, 0x30784645354209097b092320534d414c4c204c454654204355524c5920425241434b4554),
  (37, 0x30784645354309097d092320534d414c4c205249474854204355524c5920425241434b4554),
  (45, 0x30784645354409097b092320534d414c4c204c45465420544f52544f495345205348454c4c20425241434b4554),
  (46, 0x30784645354509097d092320534d414c4c20524947485420544f52544f495345205348454c4c20425241434b4554),
  (29, 0x307846453546090923092320534d414c4c204e554d424552205349474e),
  (0, 0x0),
  (27, 0x307846453630090926092320534d414c4c20414d50455253414e44),
  (26, 0x30784645363109092a092320534d414c4c20415354455249534b),
  (27, 0x30784645363209092b092320534d414c4c20504c5553205349474e),
  (30, 0x30784645363309092d092320534d414c4c2048595048454e2d4d494e5553),
  (32, 0x30784645363409093c092320534d414c4c204c4553532d5448414e205349474e),
  (35, 0x30784645363509093e092320534d414c4c20475245415445522d5448414e205349474e),
  (29, 0x30784645363609093d092320534d414c4c20455155414c53205349474e),
  (33, 0x30784645363809095c092320534d414c4c205245564552534520534f4c49445553),
  (29, 0x307846453639090924092320534d414c4c20444f4c4c4152205349474e),
  (30, 0x307846453641090925092320534d414c4c2050455243454e54205349474e),
  (31, 0x307846453642090940092320534d414c4c20434f4d4d45524349414c204154),
  (0, 0x0),
  (38, 0x30784646303109092109232046554c4c5749445448204558434c414d4154494f4e204d41524b),
  (38, 0x307846463032090927222709232046554c4c57494454482051554f544154494f4e204d41524b),
  (33, 0x30784646303309092309232046554c4c5749445448204e554d424552205349474e),
  (33, 0x30784646303409092409232046554c4c574944544820444f4c4c4152205349474e),
  (34, 0x30784646303509092509232046554c4c57494454482050455243454e54205349474e),
  (31, 0x30784646303609092609232046554c4c574944544820414d50455253414e44),
  (34, 0x307846463037090922272209232046554c4c57494454482041504f5354524f504845),
  (38, 0x30784646303809092809232046554c4c5749445448204c45465420504152454e544845534953),
  (39, 0x30784646303909092909232046554c4c574944544820524947485420504152454e544845534953),
  (30, 0x30784646304109092a09232046554c4c574944544820415354455249534b),
  (31, 0x30784646304209092b09232046554c4c574944544820504c5553205349474e),
  (27, 0x30784646304309092c09232046554c4c574944544820434f4d4d41),
  (34, 0x30784646304409092d09232046554c4c57494454482048595048454e2d4d494e5553),
  (31, 0x30784646304509092e09232046554c4c57494454482046554c4c2053544f50),
  (29, 0x30784646304609092f09232046554c4c574944544820534f4c49445553),
  (0, 0x0),
  (32, 0x30784646313009093009232046554c4c5749445448204449474954205a45524f),
  (31, 0x30784646313109093109232046554c4c5749445448204449474954204f4e45),
  (31, 0x30784646313209093209232046554c4c57494454482044494749542054574f),
  (33, 0x30784646313309093309232046554c4c5749445448204449474954205448524545),
  (32, 0x30784646313409093409232046554c4c574944544820444947495420464f5552),
  (32, 0x30784646313509093509232046554c4c57494454482044494749542046495645),
  (31, 0x30784646313609093609232046554c4c574944544820444947495420534958),
  (33, 0x30784646313709093709232046554c4c574944544820444947495420534556454e),
  (33, 0x30784646313809093809232046554c4c5749445448204449474954204549474854),
  (32, 0x30784646313909093909232046554c4c5749445448204449474954204e494e45),
  (27, 0x30784646314109093a09232046554c4c574944544820434f4c4f4e),
  (31, 0x30784646314209093b09232046554c4c57494454482053454d49434f4c4f4e),
  (36, 0x30784646314309093c09232046554c4c5749445448204c4553532d5448414e205349474e),
  (33, 0x30784646314409093d09232046554c4c574944544820455155414c53205349474e),
  (39, 0x30784646314509093e09232046554c4c574944544820475245415445522d5448414e205349474e),
  (35, 0x30784646314609093f09232046554c4c5749445448205155455354494f4e204d41524b),
  (0, 0x0),
  (35, 0x30784646323009094009232046554c4c574944544820434f4d4d45524349414c204154),
  (44, 0x30784646323109094109232046554c4c5749445448204c4154494e204341504954414c204c45545445522041),
  (44, 0x30784646323209094209232046554c4c5749445448204c4154494e204341504954414c204c45545445522042),
  (44, 0x30784646323309094309232046554c4c5749445448204c4154494e204341504954414c204c45545445522043),
  (44, 0x30784646323409094409232046554c4c5749445448204c4154494e204341504954414c204c45545445522044),
  (44, 0x30784646323509094509232046554c4c5749445448204c4154494e204341504954414c204c45545445522045),
  (44, 0x30784646323609094609232046554c4c5749445448204c4154494e204341504954414c204c45545445522046),
  (44, 0x30784646323709094709232046554c4c5749445448204c4154494e204341504954414c204c45545445522047),
  (44, 0x30784646323809094809232046554c4c5749445448204c4154494e204341504954414c204c45545445522048),
  (44, 0x30784646323909094909232046554c4c5749445448204c4154494e204341504954414c204c45545445522049),
  (44, 0x30784646324109094a09232046554c4c5749445448204c4154494e204341504954414c204c4554544552204a),
  (44, 0x30784646324209094b09232046554c4c5749445448204c4154494e204341504954414c204c4554544552204b),
  (44, 0x30784646324309094c09232046554c4c5749445448204c4154494e204341504954414c204c4554544552204c),
  (44, 0x30784646324409094d09232046554c4c5749445448204c4154494e204341504954414c204c4554544552204d),
  (44, 0x30784646324509094e09232046554c4c5749445448204c4154494e204341504954414c204c4554544552204e),
  (44, 0x30784646324609094f09232046554c4c5749445448204c4154494e204341504954414c204c4554544552204f),
  (0, 0x0),
  (44, 0x30784646333009095009232046554c4c5749445448204c4154494e204341504954414c204c45545445522050),
  (44, 0x30784646333109095109232046554c4c5749445448204c4154494e204341504954414c204c45545445522051),
  (44, 0x30784646333209095209232046554c4c5749445448204c4154494e204341504954414c204c45545445522052),
  (44, 0x30784646333309095309232046554c4c5749445448204c4154494e204341504954414c204c45545445522053),
  (44, 0x30784646333409095409232046554c4c5749445448204c4154494e204341504954414c204c45545445522054),
  (44, 0x30784646333509095509232046554c4c5749445448204c4154494e204341504954414c204c45545445522055),
  (44, 0x30784646333609095609232046554c4c5749445448204c4154494e204341504954414c204c45545445522056),
  (44, 0x30784646333709095709232046554c4c5749445448204c4154494e204341504954414c204c45545445522057),
  (44, 0x30784646333809095809232046554c4c5749445448204c4154494e204341504954414c204c45545445522058),
  (44, 0x30784646333909095909232046554c4c5749445448204c4154494e204341504954414c204c45545445522059),
  (44, 0x30784646334109095a09232046554c4c5749445448204c4154494e204341504954414c204c4554544552205a),
  (41, 0x30784646334209095b09232046554c4c5749445448204c4546542053515541524520425241434b4554),
  (37, 0x30784646334309095c09232046554c4c5749445448205245564552534520534f4c49445553),
  (42, 0x30784646334409095d09232046554c4c57494454482052494748542053515541524520425241434b4554),
  (39, 0x30784646334509095e09232046554c4c57494454482043495243554d464c455820414343454e54),
  (30, 0x30784646334609095f09232046554c4c5749445448204c4f57204c494e45),
  (0, 0x0)]

/-- Lines 8919-9018 of table/legacy/unidecode.tbl. -/
def legacy_unidecode_91 : List (Nat × Nat) := [
  (34, 0x30784646343009096009232046554c4c574944544820475241564520414343454e54),
  (42, 0x30784646343109096109232046554c4c5749445448204c4154494e20534d414c4c204c45545445522041),
  (42, 0x30784646343209096209232046554c4c5749445448204c4154494e20534d414c4c204c45545445522042),
  (42, 0x30784646343309096309232046554c4c5749445448204c4154494e20534d414c4c204c45545445522043),
  (42, 0x30784646343409096409232046554c4c5749445448204c4154494e20534d414c4c204c45545445522044),
  (42, 0x30784646343509096509232046554c4c5749445448204c4154494e20534d414c4c204c45545445522045),
  (42, 0x30784646343609096609232046554c4c5749445448204c4154494e20534d414c4c204c45545445522046),
  (42, 0x30784646343709096709232046554c4c5749445448204c4154494e20534d414c4c204c45545445522047),
  (42, 0x30784646343809096809232046554c4c5749445448204c4154494e20534d414c4c204c45545445522048),
  (42, 0x30784646343909096909232046554c4c5749445448204c4154494e20534d414c4c204c45545445522049),
  (42, 0x30784646344109096a09232046554c4c5749445448204c4154494e20534d414c4c204c4554544552204a),
  (42, 0x30784646344209096b09232046554c4c5749445448204c4154494e20534d414c4c204c4554544552204b),
  (42, 0x30784646344309096c09232046554c4c5749445448204c4154494e20534d414c4c204c4554544552204c),
  (42, 0x30784646344409096d09232046554c4c5749445448204c4154494e20534d414c4c204c4554544552204d),
  (42, 0x30784646344509096e09232046554c4c5749445448204c4154494e20534d414c4c204c4554544552204e),
  (42, 0x30784646344609096f09232046554c4c5749445448204c4154494e20534d414c4c204c4554544552204f),
  (0, 0x0),
  (42, 0x30784646353009097009232046554c4c5749445448204c4154494e20534d414c4c204c45545445522050),
  (42, 0x30784646353109097109232046554c4c5749445448204c4154494e20534d414c4c204c45545445522051),
  (42, 0x30784646353209097209232046554c4c5749445448204c4154494e20534d414c4c204c45545445522052),
  (42, 0x30784646353309097309232046554c4c5749445448204c4154494e20534d414c4c204c45545445522053),
  (42, 0x30784646353409097409232046554c4c5749445448204c4154494e20534d414c4c204c45545445522054),
  (42, 0x30784646353509097509232046554c4c5749445448204c4154494e20534d414c4c204c45545445522055),
  (42, 0x30784646353609097609232046554c4c5749445448204c4154494e20534d414c4c204c45545445522056),
  (42, 0x30784646353709097709232046554c4c5749445448204c4154494e20534d414c4c204c45545445522057),
  (42, 0x30784646353809097809232046554c4c5749445448204c4154494e20534d414c4c204c45545445522058),
  (42, 0x30784646353909097909232046554c4c5749445448204c4154494e20534d414c4c204c45545445522059),
  (42, 0x30784646354109097a09232046554c4c5749445448204c4154494e20534d414c4c204c4554544552205a),
  (40, 0x30784646354209097b09232046554c4c5749445448204c454654204355524c5920425241434b4554),
  (35, 0x30784646354309097c09232046554c4c574944544820564552544943414c204c494e45),
  (41, 0x30784646354409097d09232046554c4c5749445448205249474854204355524c5920425241434b4554),
  (27, 0x30784646354509097e09232046554c4c57494454482054494c4445),
  (0, 0x0),
  (43, 0x30784646363109092e09232048414c465749445448204944454f475241504849432046554c4c2053544f50),
  (41, 0x30784646363209095b09232048414c465749445448204c45465420434f524e455220425241434b4554),
  (42, 0x30784646363309095d09232048414c46574944544820524947485420434f524e455220425241434b4554),
  (39, 0x30784646363409092c09232048414c465749445448204944454f4752415048494320434f4d4d41),
  (41, 0x30784646363509092a09232048414c465749445448204b4154414b414e41204d4944444c4520444f54),
  (41, 0x3078464636360909776f09232048414c465749445448204b4154414b414e41204c455454455220574f),
  (45, 0x30784646363709096109232048414c465749445448204b4154414b414e41204c455454455220534d414c4c2041),
  (45, 0x30784646363809096909232048414c465749445448204b4154414b414e41204c455454455220534d414c4c2049),
  (45, 0x30784646363909097509232048414c465749445448204b4154414b414e41204c455454455220534d414c4c2055),
  (45, 0x30784646364109096509232048414c465749445448204b4154414b414e41204c455454455220534d414c4c2045),
  (45, 0x30784646364209096f09232048414c465749445448204b4154414b414e41204c455454455220534d414c4c204f),
  (47, 0x3078464636430909796109232048414c465749445448204b4154414b414e41204c455454455220534d414c4c205941),
  (47, 0x3078464636440909797509232048414c465749445448204b4154414b414e41204c455454455220534d414c4c205955),
  (47, 0x3078464636450909796f09232048414c465749445448204b4154414b414e41204c455454455220534d414c4c20594f),
  (47, 0x3078464636460909747509232048414c465749445448204b4154414b414e41204c455454455220534d414c4c205455),
  (0, 0x0),
  (60, 0x30784646373009092b09232048414c465749445448204b4154414b414e412d4849524147414e412050524f4c4f4e47454420534f554e44204d41524b),
  (39, 0x30784646373109096109232048414c465749445448204b4154414b414e41204c45545445522041),
  (39, 0x30784646373209096909232048414c465749445448204b4154414b414e41204c45545445522049),
  (39, 0x30784646373309097509232048414c465749445448204b4154414b414e41204c45545445522055),
  (39, 0x30784646373409096509232048414c465749445448204b4154414b414e41204c45545445522045),
  (39, 0x30784646373509096f09232048414c465749445448204b4154414b414e41204c4554544552204f),
  (41, 0x30784646373609096b6109232048414c465749445448204b4154414b414e41204c4554544552204b41),
  (41, 0x30784646373709096b6909232048414c465749445448204b4154414b414e41204c4554544552204b49),
  (41, 0x30784646373809096b7509232048414c465749445448204b4154414b414e41204c4554544552204b55),
  (41, 0x30784646373909096b6509232048414c465749445448204b4154414b414e41204c4554544552204b45),
  (41, 0x30784646374109096b6f09232048414c465749445448204b4154414b414e41204c4554544552204b4f),
  (41, 0x3078464637420909736109232048414c465749445448204b4154414b414e41204c4554544552205341),
  (41, 0x3078464637430909736909232048414c465749445448204b4154414b414e41204c4554544552205349),
  (41, 0x3078464637440909737509232048414c465749445448204b4154414b414e41204c4554544552205355),
  (41, 0x3078464637450909736509232048414c465749445448204b4154414b414e41204c4554544552205345),
  (41, 0x3078464637460909736f09232048414c465749445448204b4154414b414e41204c455454455220534f),
  (0, 0x0),
  (41, 0x3078464638300909746109232048414c465749445448204b4154414b414e41204c4554544552205441),
  (41, 0x3078464638310909746909232048414c465749445448204b4154414b414e41204c4554544552205449),
  (41, 0x3078464638320909747509232048414c465749445448204b4154414b414e41204c4554544552205455),
  (41, 0x3078464638330909746509232048414c465749445448204b4154414b414e41204c4554544552205445),
  (41, 0x3078464638340909746f09232048414c465749445448204b4154414b414e41204c455454455220544f),
  (41, 0x30784646383509096e6109232048414c465749445448204b4154414b414e41204c4554544552204e41),
  (41, 0x30784646383609096e6909232048414c465749445448204b4154414b414e41204c4554544552204e49),
  (41, 0x30784646383709096e7509232048414c465749445448204b4154414b414e41204c4554544552204e55),
  (41, 0x30784646383809096e6509232048414c465749445448204b4154414b414e41204c4554544552204e45),
  (41, 0x30784646383909096e6f09232048414c465749445448204b4154414b414e41204c4554544552204e4f),
  (41, 0x3078464638410909686109232048414c465749445448204b4154414b414e41204c4554544552204841),
  (41, 0x3078464638420909686909232048414c465749445448204b4154414b414e41204c4554544552204849),
  (41, 0x3078464638430909687509232048414c465749445448204b4154414b414e41204c4554544552204855),
  (41, 0x3078464638440909686509232048414c465749445448204b4154414b414e41204c4554544552204845),
  (41, 0x3078464638450909686f09232048414c465749445448204b4154414b414e41204c455454455220484f),
  (41, 0x30784646384609096d6109232048414c465749445448204b4154414b414e41204c4554544552204d41),
  (0, 0x0),
  (41, 0x30784646393009096d6909232048414c465749445448204b4154414b414e41204c4554544552204d49),
  (41, 0x30784646393109096d7509232048414c465749445448204b4154414b414e41204c4554544552204d55),
  (41, 0x30784646393209096d6509232048414c465749445448204b4154414b414e41204c4554544552204d45),
  (41, 0x30784646393309096d6f09232048414c465749445448204b4154414b414e41204c4554544552204d4f),
  (41, 0x3078464639340909796109232048414c465749445448204b4154414b414e41204c4554544552205941),
  (41, 0x3078464639350909797509232048414c465749445448204b4154414b414e41204c4554544552205955),
  (41, 0x3078464639360909796f09232048414c465749445448204b4154414b414e41204c455454455220594f),
  (41, 0x3078464639370909726109232048414c465749445448204b4154414b414e41204c4554544552205241),
  (41, 0x3078464639380909726909232048414c465749445448204b4154414b414e41204c4554544552205249),
  (41, 0x3078464639390909727509232048414c465749445448204b4154414b414e41204c4554544552205255),
  (41, 0x3078464639410909726509232048414c465749445448204b4154414b414e41204c4554544552205245),
  (41, 0x3078464639420909726f09232048414c465749445448204b4154414b414e41204c455454455220524f),
  (41, 0x3078464639430909776109232048414c465749445448204b4154414b414e41204c4554544552205741),
  (39, 0x30784646394409096e09232048414c465749445448204b4154414b414e41204c4554544552204e),
  (48, 0x30784646394509093a09232048414c465749445448204b4154414b414e4120564f4943454420534f554e44204d41524b),
  (53, 0x30784646394609093b09232048414c465749445448204b4154414b414e412053454d492d564f4943454420534f554e44204d41524b),
  (0, 0x0)]

/-- Lines 9019-9088 of table/legacy/unidecode.tbl. -/
def legacy_unidecode_92 : List (Nat × Nat) := [
  (42, 0x30784646413109096709232048414c4657494454482048414e47554c204c4554544552204b4959454f4b),
  (48, 0x3078464641320909676709232048414c4657494454482048414e47554c204c4554544552205353414e474b4959454f4b),
  (48, 0x3078464641330909677309232048414c4657494454482048414e47554c204c4554544552204b4959454f4b2d53494f53),
  (41, 0x30784646413409096e09232048414c4657494454482048414e47554c204c4554544552204e4945554e),
  (48, 0x30784646413509096e6a09232048414c4657494454482048414e47554c204c4554544552204e4945554e2d4349455543),
  (48, 0x30784646413609096e6809232048414c4657494454482048414e47554c204c4554544552204e4945554e2d4849455548),
  (42, 0x30784646413709096409232048414c4657494454482048414e47554c204c45545445522054494b455554),
  (48, 0x3078464641380909646409232048414c4657494454482048414e47554c204c4554544552205353414e4754494b455554),
  (41, 0x30784646413909097209232048414c4657494454482048414e47554c204c455454455220524945554c),
  (49, 0x30784646414109096c6709232048414c4657494454482048414e47554c204c455454455220524945554c2d4b4959454f4b),
  (48, 0x30784646414209096c6d09232048414c4657494454482048414e47554c204c455454455220524945554c2d4d4945554d),
  (48, 0x30784646414309096c6209232048414c4657494454482048414e47554c204c455454455220524945554c2d5049455550),
  (47, 0x30784646414409096c7309232048414c4657494454482048414e47554c204c455454455220524945554c2d53494f53),
  (50, 0x30784646414509096c7409232048414c4657494454482048414e47554c204c455454455220524945554c2d54484945555448),
  (50, 0x30784646414609096c7009232048414c4657494454482048414e47554c204c455454455220524945554c2d50484945555048),
  (0, 0x0),
  (48, 0x3078464642300909726809232048414c4657494454482048414e47554c204c455454455220524945554c2d4849455548),
  (41, 0x30784646423109096d09232048414c4657494454482048414e47554c204c4554544552204d4945554d),
  (41, 0x30784646423209096209232048414c4657494454482048414e47554c204c4554544552205049455550),
  (47, 0x3078464642330909626209232048414c4657494454482048414e47554c204c4554544552205353414e475049455550),
  (47, 0x3078464642340909627309232048414c4657494454482048414e47554c204c45545445522050494555502d53494f53),
  (40, 0x30784646423509097309232048414c4657494454482048414e47554c204c45545445522053494f53),
  (46, 0x3078464642360909737309232048414c4657494454482048414e47554c204c4554544552205353414e4753494f53),
  (41, 0x30784646423809096a09232048414c4657494454482048414e47554c204c4554544552204349455543),
  (47, 0x30784646423909096a6a09232048414c4657494454482048414e47554c204c4554544552205353414e474349455543),
  (43, 0x30784646424109096309232048414c4657494454482048414e47554c204c45545445522043484945554348),
  (43, 0x30784646424209096b09232048414c4657494454482048414e47554c204c4554544552204b484945554b48),
  (43, 0x30784646424309097409232048414c4657494454482048414e47554c204c45545445522054484945555448),
  (43, 0x30784646424409097009232048414c4657494454482048414e47554c204c45545445522050484945555048),
  (41, 0x30784646424509096809232048414c4657494454482048414e47554c204c4554544552204849455548),
  (37, 0x30784646433209096109232048414c4657494454482048414e47554c204c45545445522041),
  (39, 0x3078464643330909616509232048414c4657494454482048414e47554c204c4554544552204145),
  (39, 0x3078464643340909796109232048414c4657494454482048414e47554c204c4554544552205941),
  (41, 0x307846464335090979616509232048414c4657494454482048414e47554c204c455454455220594145),
  (39, 0x3078464643360909656f09232048414c4657494454482048414e47554c204c455454455220454f),
  (37, 0x30784646433709096509232048414c4657494454482048414e47554c204c45545445522045),
  (41, 0x307846464341090979656f09232048414c4657494454482048414e47554c204c45545445522059454f),
  (39, 0x3078464643420909796509232048414c4657494454482048414e47554c204c4554544552205945),
  (37, 0x30784646434309096f09232048414c4657494454482048414e47554c204c4554544552204f),
  (39, 0x3078464643440909776109232048414c4657494454482048414e47554c204c4554544552205741),
  (41, 0x307846464345090977616509232048414c4657494454482048414e47554c204c455454455220574145),
  (39, 0x30784646434609096f6509232048414c4657494454482048414e47554c204c4554544552204f45),
  (39, 0x3078464644320909796f09232048414c4657494454482048414e47554c204c455454455220594f),
  (37, 0x30784646443309097509232048414c4657494454482048414e47554c204c45545445522055),
  (41, 0x307846464434090977656f09232048414c4657494454482048414e47554c204c45545445522057454f),
  (39, 0x3078464644350909776509232048414c4657494454482048414e47554c204c4554544552205745),
  (39, 0x3078464644360909776909232048414c4657494454482048414e47554c204c4554544552205749),
  (39, 0x3078464644370909797509232048414c4657494454482048414e47554c204c4554544552205955),
  (39, 0x3078464644410909657509232048414c4657494454482048414e47554c204c4554544552204555),
  (39, 0x3078464644420909796909232048414c4657494454482048414e47554c204c4554544552205949),
  (37, 0x30784646444309096909232048414c4657494454482048414e47554c204c45545445522049),
  (0, 0x0),
  (32, 0x30784646453009092f4309232046554c4c57494454482043454e54205349474e),
  (33, 0x3078464645310909505309232046554c4c574944544820504f554e44205349474e),
  (30, 0x30784646453209092109232046554c4c5749445448204e4f54205349474e),
  (28, 0x30784646453309092d09232046554c4c5749445448204d4143524f4e),
  (32, 0x30784646453409097c09232046554c4c57494454482042524f4b454e20424152),
  (31, 0x3078464645350909593d09232046554c4c57494454482059454e205349474e),
  (31, 0x3078464645360909573d09232046554c4c574944544820574f4e205349474e),
  (42, 0x30784646453809097c09232048414c46574944544820464f524d53204c4947485420564552544943414c),
  (37, 0x30784646453909092d09232048414c465749445448204c4546545741524453204152524f57),
  (35, 0x30784646454109097c09232048414c4657494454482055505741524453204152524f57),
  (38, 0x30784646454209092d09232048414c4657494454482052494748545741524453204152524f57),
  (37, 0x30784646454309097c09232048414c46574944544820444f574e5741524453204152524f57),
  (34, 0x30784646454409092309232048414c46574944544820424c41434b20535155415245),
  (34, 0x30784646454509094f09232048414c46574944544820574849544520434952434c45),
  (41, 0x30784646463909097b092320494e5445524c494e45415220414e4e4f544154494f4e20414e43484f52),
  (44, 0x30784646464109097c092320494e5445524c494e45415220414e4e4f544154494f4e20534550415241544f52),
  (45, 0x30784646464209097d092320494e5445524c494e45415220414e4e4f544154494f4e205445524d494e41544f52),
  (0, 0x0)]

/-- Lines 9089-9089 of table/legacy/unidecode.tbl. -/
def legacy_unidecode_93 : List (Nat × Nat) := [
  (3, 0x656e64)]

/-- The parts between the first `start` and the first `end` of table/legacy/unidecode.tbl, lines 19-9088. -/
def legacy_unidecode_body : List (List (Nat × Nat)) := [
  legacy_unidecode_2, legacy_unidecode_3, legacy_unidecode_4, legacy_unidecode_5, legacy_unidecode_6, legacy_unidecode_7,
  legacy_unidecode_8, legacy_unidecode_9, legacy_unidecode_10, legacy_unidecode_11, legacy_unidecode_12, legacy_unidecode_13,
  legacy_unidecode_14, legacy_unidecode_15, legacy_unidecode_16, legacy_unidecode_17, legacy_unidecode_18, legacy_unidecode_19,
  legacy_unidecode_20, legacy_unidecode_21, legacy_unidecode_22, legacy_unidecode_23, legacy_unidecode_24, legacy_unidecode_25,
  legacy_unidecode_26, legacy_unidecode_27, legacy_unidecode_28, legacy_unidecode_29, legacy_unidecode_30, legacy_unidecode_31,
  legacy_unidecode_32, legacy_unidecode_33, legacy_unidecode_34, legacy_unidecode_35, legacy_unidecode_36, legacy_unidecode_37,
  legacy_unidecode_38, legacy_unidecode_39, legacy_unidecode_40, legacy_unidecode_41, legacy_unidecode_42, legacy_unidecode_43,
  legacy_unidecode_44, legacy_unidecode_45, legacy_unidecode_46, legacy_unidecode_47, legacy_unidecode_48, legacy_unidecode_49,
  legacy_unidecode_50, legacy_unidecode_51, legacy_unidecode_52, legacy_unidecode_53, legacy_unidecode_54, legacy_unidecode_55,
  legacy_unidecode_56, legacy_unidecode_57, legacy_unidecode_58, legacy_unidecode_59, legacy_unidecode_60, legacy_unidecode_61,
  legacy_unidecode_62, legacy_unidecode_63, legacy_unidecode_64, legacy_unidecode_65, legacy_unidecode_66, legacy_unidecode_67,
  legacy_unidecode_68, legacy_unidecode_69, legacy_unidecode_70, legacy_unidecode_71, legacy_unidecode_72, legacy_unidecode_73,
  legacy_unidecode_74, legacy_unidecode_75, legacy_unidecode_76, legacy_unidecode_77, legacy_unidecode_78, legacy_unidecode_79,
  legacy_unidecode_80, legacy_unidecode_81, legacy_unidecode_82, legacy_unidecode_83, legacy_unidecode_84, legacy_unidecode_85,
  legacy_unidecode_86, legacy_unidecode_87, legacy_unidecode_88, legacy_unidecode_89, legacy_unidecode_90, legacy_unidecode_91,
  legacy_unidecode_92]

/-- All parts of table/legacy/unidecode.tbl, lines 1-9089. -/
def legacy_unidecode_parts : List (List (Nat × Nat)) := legacy_unidecode_0 :: legacy_unidecode_1 :: (legacy_unidecode_body ++ [
  legacy_unidecode_93])

/-- The file table/legacy/unidecode.tbl, lines 1-9089. -/
def legacy_unidecode : Bytes := packedFile legacy_unidecode_parts.flatten

end Detox
