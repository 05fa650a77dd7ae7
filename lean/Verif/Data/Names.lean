/-! Generated by tools/gen_names.py: the names of unic/ucd/name/tables/name_map.rsv with the pieces of name_values.rsd put in.
A name is the number whose bytes are its pieces, each followed by a space. -/
namespace Data

def names_0 : List (Nat × Nat) := [
  (0x20, 0x535041434520),
  (0x21, 0x4558434C414D4154494F4E204D41524B20),
  (0x22, 0x51554F544154494F4E204D41524B20),
  (0x23, 0x4E554D424552205349474E20),
  (0x24, 0x444F4C4C4152205349474E20),
  (0x25, 0x50455243454E54205349474E20),
  (0x26, 0x414D50455253414E4420),
  (0x27, 0x41504F5354524F50484520),
  (0x28, 0x4C45465420504152454E54484553495320),
  (0x29, 0x524947485420504152454E54484553495320),
  (0x2A, 0x415354455249534B20),
  (0x2B, 0x504C5553205349474E20),
  (0x2C, 0x434F4D4D4120),
  (0x2D, 0x48595048454E2D4D494E555320),
  (0x2E, 0x46554C4C2053544F5020),
  (0x2F, 0x534F4C4944555320),
  (0x30, 0x4449474954205A45524F20),
  (0x31, 0x4449474954204F4E4520),
  (0x32, 0x44494749542054574F20),
  (0x33, 0x444947495420544852454520),
  (0x34, 0x444947495420464F555220),
  (0x35, 0x4449474954204649564520),
  (0x36, 0x44494749542053495820),
  (0x37, 0x444947495420534556454E20),
  (0x38, 0x444947495420454947485420),
  (0x39, 0x4449474954204E494E4520),
  (0x3A, 0x434F4C4F4E20),
  (0x3B, 0x53454D49434F4C4F4E20),
  (0x3C, 0x4C4553532D5448414E205349474E20),
  (0x3D, 0x455155414C53205349474E20),
  (0x3E, 0x475245415445522D5448414E205349474E20),
  (0x3F, 0x5155455354494F4E204D41524B20),
  (0x40, 0x434F4D4D45524349414C20415420),
  (0x41, 0x4C4154494E204341504954414C204C4554544552204120),
  (0x42, 0x4C4154494E204341504954414C204C4554544552204220),
  (0x43, 0x4C4154494E204341504954414C204C4554544552204320),
  (0x44, 0x4C4154494E204341504954414C204C4554544552204420),
  (0x45, 0x4C4154494E204341504954414C204C4554544552204520),
  (0x46, 0x4C4154494E204341504954414C204C4554544552204620),
  (0x47, 0x4C4154494E204341504954414C204C4554544552204720),
  (0x48, 0x4C4154494E204341504954414C204C4554544552204820),
  (0x49, 0x4C4154494E204341504954414C204C4554544552204920),
  (0x4A, 0x4C4154494E204341504954414C204C4554544552204A20),
  (0x4B, 0x4C4154494E204341504954414C204C4554544552204B20),
  (0x4C, 0x4C4154494E204341504954414C204C4554544552204C20),
  (0x4D, 0x4C4154494E204341504954414C204C4554544552204D20),
  (0x4E, 0x4C4154494E204341504954414C204C4554544552204E20),
  (0x4F, 0x4C4154494E204341504954414C204C4554544552204F20),
  (0x50, 0x4C4154494E204341504954414C204C4554544552205020),
  (0x51, 0x4C4154494E204341504954414C204C4554544552205120),
  (0x52, 0x4C4154494E204341504954414C204C4554544552205220),
  (0x53, 0x4C4154494E204341504954414C204C4554544552205320),
  (0x54, 0x4C4154494E204341504954414C204C4554544552205420),
  (0x55, 0x4C4154494E204341504954414C204C4554544552205520),
  (0x56, 0x4C4154494E204341504954414C204C4554544552205620),
  (0x57, 0x4C4154494E204341504954414C204C4554544552205720),
  (0x58, 0x4C4154494E204341504954414C204C4554544552205820),
  (0x59, 0x4C4154494E204341504954414C204C4554544552205920),
  (0x5A, 0x4C4154494E204341504954414C204C4554544552205A20),
  (0x5B, 0x4C4546542053515541524520425241434B455420),
  (0x5C, 0x5245564552534520534F4C4944555320),
  (0x5D, 0x52494748542053515541524520425241434B455420),
  (0x5E, 0x43495243554D464C455820414343454E5420),
  (0x5F, 0x4C4F57204C494E4520)]
def names_1 : List (Nat × Nat) := [
  (0x60, 0x475241564520414343454E5420),
  (0x61, 0x4C4154494E20534D414C4C204C4554544552204120),
  (0x62, 0x4C4154494E20534D414C4C204C4554544552204220),
  (0x63, 0x4C4154494E20534D414C4C204C4554544552204320),
  (0x64, 0x4C4154494E20534D414C4C204C4554544552204420),
  (0x65, 0x4C4154494E20534D414C4C204C4554544552204520),
  (0x66, 0x4C4154494E20534D414C4C204C4554544552204620),
  (0x67, 0x4C4154494E20534D414C4C204C4554544552204720),
  (0x68, 0x4C4154494E20534D414C4C204C4554544552204820),
  (0x69, 0x4C4154494E20534D414C4C204C4554544552204920),
  (0x6A, 0x4C4154494E20534D414C4C204C4554544552204A20),
  (0x6B, 0x4C4154494E20534D414C4C204C4554544552204B20),
  (0x6C, 0x4C4154494E20534D414C4C204C4554544552204C20),
  (0x6D, 0x4C4154494E20534D414C4C204C4554544552204D20),
  (0x6E, 0x4C4154494E20534D414C4C204C4554544552204E20),
  (0x6F, 0x4C4154494E20534D414C4C204C4554544552204F20),
  (0x70, 0x4C4154494E20534D414C4C204C4554544552205020),
  (0x71, 0x4C4154494E20534D414C4C204C4554544552205120),
  (0x72, 0x4C4154494E20534D414C4C204C4554544552205220),
  (0x73, 0x4C4154494E20534D414C4C204C4554544552205320),
  (0x74, 0x4C4154494E20534D414C4C204C4554544552205420),
  (0x75, 0x4C4154494E20534D414C4C204C4554544552205520),
  (0x76, 0x4C4154494E20534D414C4C204C4554544552205620),
  (0x77, 0x4C4154494E20534D414C4C204C4554544552205720),
  (0x78, 0x4C4154494E20534D414C4C204C4554544552205820),
  (0x79, 0x4C4154494E20534D414C4C204C4554544552205920),
  (0x7A, 0x4C4154494E20534D414C4C204C4554544552205A20),
  (0x7B, 0x4C454654204355524C5920425241434B455420),
  (0x7C, 0x564552544943414C204C494E4520),
  (0x7D, 0x5249474854204355524C5920425241434B455420),
  (0x7E, 0x54494C444520),
  (0xA0, 0x4E4F2D425245414B20535041434520),
  (0xA1, 0x494E564552544544204558434C414D4154494F4E204D41524B20),
  (0xA2, 0x43454E54205349474E20),
  (0xA3, 0x504F554E44205349474E20),
  (0xA4, 0x43555252454E4359205349474E20),
  (0xA5, 0x59454E205349474E20),
  (0xA6, 0x42524F4B454E2042415220),
  (0xA7, 0x53454354494F4E205349474E20),
  (0xA8, 0x44494145524553495320),
  (0xA9, 0x434F50595249474854205349474E20),
  (0xAA, 0x46454D494E494E45204F5244494E414C20494E44494341544F5220),
  (0xAB, 0x4C4546542D504F494E54494E4720444F55424C4520414E474C452051554F544154494F4E204D41524B20),
  (0xAC, 0x4E4F54205349474E20),
  (0xAD, 0x534F46542048595048454E20),
  (0xAE, 0x52454749535445524544205349474E20),
  (0xAF, 0x4D4143524F4E20),
  (0xB0, 0x444547524545205349474E20),
  (0xB1, 0x504C55532D4D494E5553205349474E20),
  (0xB2, 0x53555045525343524950542054574F20),
  (0xB3, 0x535550455253435249505420544852454520),
  (0xB4, 0x414355544520414343454E5420),
  (0xB5, 0x4D4943524F205349474E20),
  (0xB6, 0x50494C43524F57205349474E20),
  (0xB7, 0x4D4944444C4520444F5420),
  (0xB8, 0x434544494C4C4120),
  (0xB9, 0x5355504552534352495054204F4E4520),
  (0xBA, 0x4D415343554C494E45204F5244494E414C20494E44494341544F5220),
  (0xBB, 0x52494748542D504F494E54494E4720444F55424C4520414E474C452051554F544154494F4E204D41524B20),
  (0xBC, 0x56554C474152204652414354494F4E204F4E45205155415254455220),
  (0xBD, 0x56554C474152204652414354494F4E204F4E452048414C4620),
  (0xBE, 0x56554C474152204652414354494F4E20544852454520515541525445525320),
  (0xBF, 0x494E564552544544205155455354494F4E204D41524B20),
  (0xC0, 0x4C4154494E204341504954414C204C45545445522041205749544820475241564520)]
def names_2 : List (Nat × Nat) := [
  (0xC1, 0x4C4154494E204341504954414C204C45545445522041205749544820414355544520),
  (0xC2, 0x4C4154494E204341504954414C204C4554544552204120574954482043495243554D464C455820),
  (0xC3, 0x4C4154494E204341504954414C204C4554544552204120574954482054494C444520),
  (0xC4, 0x4C4154494E204341504954414C204C4554544552204120574954482044494145524553495320),
  (0xC5, 0x4C4154494E204341504954414C204C4554544552204120574954482052494E472041424F564520),
  (0xC6, 0x4C4154494E204341504954414C204C455454455220414520),
  (0xC7, 0x4C4154494E204341504954414C204C45545445522043205749544820434544494C4C4120),
  (0xC8, 0x4C4154494E204341504954414C204C45545445522045205749544820475241564520),
  (0xC9, 0x4C4154494E204341504954414C204C45545445522045205749544820414355544520),
  (0xCA, 0x4C4154494E204341504954414C204C4554544552204520574954482043495243554D464C455820),
  (0xCB, 0x4C4154494E204341504954414C204C4554544552204520574954482044494145524553495320),
  (0xCC, 0x4C4154494E204341504954414C204C45545445522049205749544820475241564520),
  (0xCD, 0x4C4154494E204341504954414C204C45545445522049205749544820414355544520),
  (0xCE, 0x4C4154494E204341504954414C204C4554544552204920574954482043495243554D464C455820),
  (0xCF, 0x4C4154494E204341504954414C204C4554544552204920574954482044494145524553495320),
  (0xD0, 0x4C4154494E204341504954414C204C45545445522045544820),
  (0xD1, 0x4C4154494E204341504954414C204C4554544552204E20574954482054494C444520),
  (0xD2, 0x4C4154494E204341504954414C204C4554544552204F205749544820475241564520),
  (0xD3, 0x4C4154494E204341504954414C204C4554544552204F205749544820414355544520),
  (0xD4, 0x4C4154494E204341504954414C204C4554544552204F20574954482043495243554D464C455820),
  (0xD5, 0x4C4154494E204341504954414C204C4554544552204F20574954482054494C444520),
  (0xD6, 0x4C4154494E204341504954414C204C4554544552204F20574954482044494145524553495320),
  (0xD7, 0x4D554C5449504C49434154494F4E205349474E20),
  (0xD8, 0x4C4154494E204341504954414C204C4554544552204F2057495448205354524F4B4520),
  (0xD9, 0x4C4154494E204341504954414C204C45545445522055205749544820475241564520),
  (0xDA, 0x4C4154494E204341504954414C204C45545445522055205749544820414355544520),
  (0xDB, 0x4C4154494E204341504954414C204C4554544552205520574954482043495243554D464C455820),
  (0xDC, 0x4C4154494E204341504954414C204C4554544552205520574954482044494145524553495320),
  (0xDD, 0x4C4154494E204341504954414C204C45545445522059205749544820414355544520),
  (0xDE, 0x4C4154494E204341504954414C204C45545445522054484F524E20),
  (0xDF, 0x4C4154494E20534D414C4C204C4554544552205348415250205320),
  (0xE0, 0x4C4154494E20534D414C4C204C45545445522041205749544820475241564520),
  (0xE1, 0x4C4154494E20534D414C4C204C45545445522041205749544820414355544520),
  (0xE2, 0x4C4154494E20534D414C4C204C4554544552204120574954482043495243554D464C455820),
  (0xE3, 0x4C4154494E20534D414C4C204C4554544552204120574954482054494C444520),
  (0xE4, 0x4C4154494E20534D414C4C204C4554544552204120574954482044494145524553495320),
  (0xE5, 0x4C4154494E20534D414C4C204C4554544552204120574954482052494E472041424F564520),
  (0xE6, 0x4C4154494E20534D414C4C204C455454455220414520),
  (0xE7, 0x4C4154494E20534D414C4C204C45545445522043205749544820434544494C4C4120),
  (0xE8, 0x4C4154494E20534D414C4C204C45545445522045205749544820475241564520),
  (0xE9, 0x4C4154494E20534D414C4C204C45545445522045205749544820414355544520),
  (0xEA, 0x4C4154494E20534D414C4C204C4554544552204520574954482043495243554D464C455820),
  (0xEB, 0x4C4154494E20534D414C4C204C4554544552204520574954482044494145524553495320),
  (0xEC, 0x4C4154494E20534D414C4C204C45545445522049205749544820475241564520),
  (0xED, 0x4C4154494E20534D414C4C204C45545445522049205749544820414355544520),
  (0xEE, 0x4C4154494E20534D414C4C204C4554544552204920574954482043495243554D464C455820),
  (0xEF, 0x4C4154494E20534D414C4C204C4554544552204920574954482044494145524553495320),
  (0xF0, 0x4C4154494E20534D414C4C204C45545445522045544820),
  (0xF1, 0x4C4154494E20534D414C4C204C4554544552204E20574954482054494C444520),
  (0xF2, 0x4C4154494E20534D414C4C204C4554544552204F205749544820475241564520),
  (0xF3, 0x4C4154494E20534D414C4C204C4554544552204F205749544820414355544520),
  (0xF4, 0x4C4154494E20534D414C4C204C4554544552204F20574954482043495243554D464C455820),
  (0xF5, 0x4C4154494E20534D414C4C204C4554544552204F20574954482054494C444520),
  (0xF6, 0x4C4154494E20534D414C4C204C4554544552204F20574954482044494145524553495320),
  (0xF7, 0x4449564953494F4E205349474E20),
  (0xF8, 0x4C4154494E20534D414C4C204C4554544552204F2057495448205354524F4B4520),
  (0xF9, 0x4C4154494E20534D414C4C204C45545445522055205749544820475241564520),
  (0xFA, 0x4C4154494E20534D414C4C204C45545445522055205749544820414355544520),
  (0xFB, 0x4C4154494E20534D414C4C204C4554544552205520574954482043495243554D464C455820),
  (0xFC, 0x4C4154494E20534D414C4C204C4554544552205520574954482044494145524553495320),
  (0xFD, 0x4C4154494E20534D414C4C204C45545445522059205749544820414355544520),
  (0xFE, 0x4C4154494E20534D414C4C204C45545445522054484F524E20),
  (0xFF, 0x4C4154494E20534D414C4C204C4554544552205920574954482044494145524553495320),
  (0x100, 0x4C4154494E204341504954414C204C455454455220412057495448204D4143524F4E20)]
def names_3 : List (Nat × Nat) := [
  (0x101, 0x4C4154494E20534D414C4C204C455454455220412057495448204D4143524F4E20),
  (0x102, 0x4C4154494E204341504954414C204C45545445522041205749544820425245564520),
  (0x103, 0x4C4154494E20534D414C4C204C45545445522041205749544820425245564520),
  (0x104, 0x4C4154494E204341504954414C204C455454455220412057495448204F474F4E454B20),
  (0x105, 0x4C4154494E20534D414C4C204C455454455220412057495448204F474F4E454B20),
  (0x106, 0x4C4154494E204341504954414C204C45545445522043205749544820414355544520),
  (0x107, 0x4C4154494E20534D414C4C204C45545445522043205749544820414355544520),
  (0x108, 0x4C4154494E204341504954414C204C4554544552204320574954482043495243554D464C455820),
  (0x109, 0x4C4154494E20534D414C4C204C4554544552204320574954482043495243554D464C455820),
  (0x10A, 0x4C4154494E204341504954414C204C45545445522043205749544820444F542041424F564520),
  (0x10B, 0x4C4154494E20534D414C4C204C45545445522043205749544820444F542041424F564520),
  (0x10C, 0x4C4154494E204341504954414C204C455454455220432057495448204341524F4E20),
  (0x10D, 0x4C4154494E20534D414C4C204C455454455220432057495448204341524F4E20),
  (0x10E, 0x4C4154494E204341504954414C204C455454455220442057495448204341524F4E20),
  (0x10F, 0x4C4154494E20534D414C4C204C455454455220442057495448204341524F4E20),
  (0x110, 0x4C4154494E204341504954414C204C455454455220442057495448205354524F4B4520),
  (0x111, 0x4C4154494E20534D414C4C204C455454455220442057495448205354524F4B4520),
  (0x112, 0x4C4154494E204341504954414C204C455454455220452057495448204D4143524F4E20),
  (0x113, 0x4C4154494E20534D414C4C204C455454455220452057495448204D4143524F4E20),
  (0x114, 0x4C4154494E204341504954414C204C45545445522045205749544820425245564520),
  (0x115, 0x4C4154494E20534D414C4C204C45545445522045205749544820425245564520),
  (0x116, 0x4C4154494E204341504954414C204C45545445522045205749544820444F542041424F564520),
  (0x117, 0x4C4154494E20534D414C4C204C45545445522045205749544820444F542041424F564520),
  (0x118, 0x4C4154494E204341504954414C204C455454455220452057495448204F474F4E454B20),
  (0x119, 0x4C4154494E20534D414C4C204C455454455220452057495448204F474F4E454B20),
  (0x11A, 0x4C4154494E204341504954414C204C455454455220452057495448204341524F4E20),
  (0x11B, 0x4C4154494E20534D414C4C204C455454455220452057495448204341524F4E20),
  (0x11C, 0x4C4154494E204341504954414C204C4554544552204720574954482043495243554D464C455820),
  (0x11D, 0x4C4154494E20534D414C4C204C4554544552204720574954482043495243554D464C455820),
  (0x11E, 0x4C4154494E204341504954414C204C45545445522047205749544820425245564520),
  (0x11F, 0x4C4154494E20534D414C4C204C45545445522047205749544820425245564520),
  (0x120, 0x4C4154494E204341504954414C204C45545445522047205749544820444F542041424F564520),
  (0x121, 0x4C4154494E20534D414C4C204C45545445522047205749544820444F542041424F564520),
  (0x122, 0x4C4154494E204341504954414C204C45545445522047205749544820434544494C4C4120),
  (0x123, 0x4C4154494E20534D414C4C204C45545445522047205749544820434544494C4C4120),
  (0x124, 0x4C4154494E204341504954414C204C4554544552204820574954482043495243554D464C455820),
  (0x125, 0x4C4154494E20534D414C4C204C4554544552204820574954482043495243554D464C455820),
  (0x126, 0x4C4154494E204341504954414C204C455454455220482057495448205354524F4B4520),
  (0x127, 0x4C4154494E20534D414C4C204C455454455220482057495448205354524F4B4520),
  (0x128, 0x4C4154494E204341504954414C204C4554544552204920574954482054494C444520),
  (0x129, 0x4C4154494E20534D414C4C204C4554544552204920574954482054494C444520),
  (0x12A, 0x4C4154494E204341504954414C204C455454455220492057495448204D4143524F4E20),
  (0x12B, 0x4C4154494E20534D414C4C204C455454455220492057495448204D4143524F4E20),
  (0x12C, 0x4C4154494E204341504954414C204C45545445522049205749544820425245564520),
  (0x12D, 0x4C4154494E20534D414C4C204C45545445522049205749544820425245564520),
  (0x12E, 0x4C4154494E204341504954414C204C455454455220492057495448204F474F4E454B20),
  (0x12F, 0x4C4154494E20534D414C4C204C455454455220492057495448204F474F4E454B20),
  (0x130, 0x4C4154494E204341504954414C204C45545445522049205749544820444F542041424F564520),
  (0x131, 0x4C4154494E20534D414C4C204C455454455220444F544C455353204920),
  (0x132, 0x4C4154494E204341504954414C204C4947415455524520494A20),
  (0x133, 0x4C4154494E20534D414C4C204C4947415455524520494A20),
  (0x134, 0x4C4154494E204341504954414C204C4554544552204A20574954482043495243554D464C455820),
  (0x135, 0x4C4154494E20534D414C4C204C4554544552204A20574954482043495243554D464C455820),
  (0x136, 0x4C4154494E204341504954414C204C4554544552204B205749544820434544494C4C4120),
  (0x137, 0x4C4154494E20534D414C4C204C4554544552204B205749544820434544494C4C4120),
  (0x138, 0x4C4154494E20534D414C4C204C4554544552204B524120),
  (0x139, 0x4C4154494E204341504954414C204C4554544552204C205749544820414355544520),
  (0x13A, 0x4C4154494E20534D414C4C204C4554544552204C205749544820414355544520),
  (0x13B, 0x4C4154494E204341504954414C204C4554544552204C205749544820434544494C4C4120),
  (0x13C, 0x4C4154494E20534D414C4C204C4554544552204C205749544820434544494C4C4120),
  (0x13D, 0x4C4154494E204341504954414C204C4554544552204C2057495448204341524F4E20),
  (0x13E, 0x4C4154494E20534D414C4C204C4554544552204C2057495448204341524F4E20),
  (0x13F, 0x4C4154494E204341504954414C204C4554544552204C2057495448204D4944444C4520444F5420),
  (0x140, 0x4C4154494E20534D414C4C204C4554544552204C2057495448204D4944444C4520444F5420)]
def names_4 : List (Nat × Nat) := [
  (0x141, 0x4C4154494E204341504954414C204C4554544552204C2057495448205354524F4B4520),
  (0x142, 0x4C4154494E20534D414C4C204C4554544552204C2057495448205354524F4B4520),
  (0x143, 0x4C4154494E204341504954414C204C4554544552204E205749544820414355544520),
  (0x144, 0x4C4154494E20534D414C4C204C4554544552204E205749544820414355544520),
  (0x145, 0x4C4154494E204341504954414C204C4554544552204E205749544820434544494C4C4120),
  (0x146, 0x4C4154494E20534D414C4C204C4554544552204E205749544820434544494C4C4120),
  (0x147, 0x4C4154494E204341504954414C204C4554544552204E2057495448204341524F4E20),
  (0x148, 0x4C4154494E20534D414C4C204C4554544552204E2057495448204341524F4E20),
  (0x149, 0x4C4154494E20534D414C4C204C4554544552204E2050524543454445442042592041504F5354524F50484520),
  (0x14A, 0x4C4154494E204341504954414C204C455454455220454E4720),
  (0x14B, 0x4C4154494E20534D414C4C204C455454455220454E4720),
  (0x14C, 0x4C4154494E204341504954414C204C4554544552204F2057495448204D4143524F4E20),
  (0x14D, 0x4C4154494E20534D414C4C204C4554544552204F2057495448204D4143524F4E20),
  (0x14E, 0x4C4154494E204341504954414C204C4554544552204F205749544820425245564520),
  (0x14F, 0x4C4154494E20534D414C4C204C4554544552204F205749544820425245564520),
  (0x150, 0x4C4154494E204341504954414C204C4554544552204F205749544820444F55424C4520414355544520),
  (0x151, 0x4C4154494E20534D414C4C204C4554544552204F205749544820444F55424C4520414355544520),
  (0x152, 0x4C4154494E204341504954414C204C49474154555245204F4520),
  (0x153, 0x4C4154494E20534D414C4C204C49474154555245204F4520),
  (0x154, 0x4C4154494E204341504954414C204C45545445522052205749544820414355544520),
  (0x155, 0x4C4154494E20534D414C4C204C45545445522052205749544820414355544520),
  (0x156, 0x4C4154494E204341504954414C204C45545445522052205749544820434544494C4C4120),
  (0x157, 0x4C4154494E20534D414C4C204C45545445522052205749544820434544494C4C4120),
  (0x158, 0x4C4154494E204341504954414C204C455454455220522057495448204341524F4E20),
  (0x159, 0x4C4154494E20534D414C4C204C455454455220522057495448204341524F4E20),
  (0x15A, 0x4C4154494E204341504954414C204C45545445522053205749544820414355544520),
  (0x15B, 0x4C4154494E20534D414C4C204C45545445522053205749544820414355544520),
  (0x15C, 0x4C4154494E204341504954414C204C4554544552205320574954482043495243554D464C455820),
  (0x15D, 0x4C4154494E20534D414C4C204C4554544552205320574954482043495243554D464C455820),
  (0x15E, 0x4C4154494E204341504954414C204C45545445522053205749544820434544494C4C4120),
  (0x15F, 0x4C4154494E20534D414C4C204C45545445522053205749544820434544494C4C4120),
  (0x160, 0x4C4154494E204341504954414C204C455454455220532057495448204341524F4E20),
  (0x161, 0x4C4154494E20534D414C4C204C455454455220532057495448204341524F4E20),
  (0x162, 0x4C4154494E204341504954414C204C45545445522054205749544820434544494C4C4120),
  (0x163, 0x4C4154494E20534D414C4C204C45545445522054205749544820434544494C4C4120),
  (0x164, 0x4C4154494E204341504954414C204C455454455220542057495448204341524F4E20),
  (0x165, 0x4C4154494E20534D414C4C204C455454455220542057495448204341524F4E20),
  (0x166, 0x4C4154494E204341504954414C204C455454455220542057495448205354524F4B4520),
  (0x167, 0x4C4154494E20534D414C4C204C455454455220542057495448205354524F4B4520),
  (0x168, 0x4C4154494E204341504954414C204C4554544552205520574954482054494C444520),
  (0x169, 0x4C4154494E20534D414C4C204C4554544552205520574954482054494C444520),
  (0x16A, 0x4C4154494E204341504954414C204C455454455220552057495448204D4143524F4E20),
  (0x16B, 0x4C4154494E20534D414C4C204C455454455220552057495448204D4143524F4E20),
  (0x16C, 0x4C4154494E204341504954414C204C45545445522055205749544820425245564520),
  (0x16D, 0x4C4154494E20534D414C4C204C45545445522055205749544820425245564520),
  (0x16E, 0x4C4154494E204341504954414C204C4554544552205520574954482052494E472041424F564520),
  (0x16F, 0x4C4154494E20534D414C4C204C4554544552205520574954482052494E472041424F564520),
  (0x170, 0x4C4154494E204341504954414C204C45545445522055205749544820444F55424C4520414355544520),
  (0x171, 0x4C4154494E20534D414C4C204C45545445522055205749544820444F55424C4520414355544520),
  (0x172, 0x4C4154494E204341504954414C204C455454455220552057495448204F474F4E454B20),
  (0x173, 0x4C4154494E20534D414C4C204C455454455220552057495448204F474F4E454B20),
  (0x174, 0x4C4154494E204341504954414C204C4554544552205720574954482043495243554D464C455820),
  (0x175, 0x4C4154494E20534D414C4C204C4554544552205720574954482043495243554D464C455820),
  (0x176, 0x4C4154494E204341504954414C204C4554544552205920574954482043495243554D464C455820),
  (0x177, 0x4C4154494E20534D414C4C204C4554544552205920574954482043495243554D464C455820),
  (0x178, 0x4C4154494E204341504954414C204C4554544552205920574954482044494145524553495320),
  (0x179, 0x4C4154494E204341504954414C204C4554544552205A205749544820414355544520),
  (0x17A, 0x4C4154494E20534D414C4C204C4554544552205A205749544820414355544520),
  (0x17B, 0x4C4154494E204341504954414C204C4554544552205A205749544820444F542041424F564520),
  (0x17C, 0x4C4154494E20534D414C4C204C4554544552205A205749544820444F542041424F564520),
  (0x17D, 0x4C4154494E204341504954414C204C4554544552205A2057495448204341524F4E20),
  (0x17E, 0x4C4154494E20534D414C4C204C4554544552205A2057495448204341524F4E20),
  (0x17F, 0x4C4154494E20534D414C4C204C4554544552204C4F4E47205320),
  (0x180, 0x4C4154494E20534D414C4C204C455454455220422057495448205354524F4B4520)]
def names_5 : List (Nat × Nat) := [
  (0x181, 0x4C4154494E204341504954414C204C45545445522042205749544820484F4F4B20),
  (0x182, 0x4C4154494E204341504954414C204C45545445522042205749544820544F5042415220),
  (0x183, 0x4C4154494E20534D414C4C204C45545445522042205749544820544F5042415220),
  (0x184, 0x4C4154494E204341504954414C204C455454455220544F4E452053495820),
  (0x185, 0x4C4154494E20534D414C4C204C455454455220544F4E452053495820),
  (0x186, 0x4C4154494E204341504954414C204C4554544552204F50454E204F20),
  (0x187, 0x4C4154494E204341504954414C204C45545445522043205749544820484F4F4B20),
  (0x188, 0x4C4154494E20534D414C4C204C45545445522043205749544820484F4F4B20),
  (0x189, 0x4C4154494E204341504954414C204C4554544552204146524943414E204420),
  (0x18A, 0x4C4154494E204341504954414C204C45545445522044205749544820484F4F4B20),
  (0x18B, 0x4C4154494E204341504954414C204C45545445522044205749544820544F5042415220),
  (0x18C, 0x4C4154494E20534D414C4C204C45545445522044205749544820544F5042415220),
  (0x18D, 0x4C4154494E20534D414C4C204C4554544552205455524E45442044454C544120),
  (0x18E, 0x4C4154494E204341504954414C204C4554544552205245564552534544204520),
  (0x18F, 0x4C4154494E204341504954414C204C455454455220534348574120),
  (0x190, 0x4C4154494E204341504954414C204C4554544552204F50454E204520),
  (0x191, 0x4C4154494E204341504954414C204C45545445522046205749544820484F4F4B20),
  (0x192, 0x4C4154494E20534D414C4C204C45545445522046205749544820484F4F4B20),
  (0x193, 0x4C4154494E204341504954414C204C45545445522047205749544820484F4F4B20),
  (0x194, 0x4C4154494E204341504954414C204C45545445522047414D4D4120),
  (0x195, 0x4C4154494E20534D414C4C204C455454455220485620),
  (0x196, 0x4C4154494E204341504954414C204C455454455220494F544120),
  (0x197, 0x4C4154494E204341504954414C204C455454455220492057495448205354524F4B4520),
  (0x198, 0x4C4154494E204341504954414C204C4554544552204B205749544820484F4F4B20),
  (0x199, 0x4C4154494E20534D414C4C204C4554544552204B205749544820484F4F4B20),
  (0x19A, 0x4C4154494E20534D414C4C204C4554544552204C20574954482042415220),
  (0x19B, 0x4C4154494E20534D414C4C204C4554544552204C414D4244412057495448205354524F4B4520),
  (0x19C, 0x4C4154494E204341504954414C204C4554544552205455524E4544204D20),
  (0x19D, 0x4C4154494E204341504954414C204C4554544552204E2057495448204C45465420484F4F4B20),
  (0x19E, 0x4C4154494E20534D414C4C204C4554544552204E2057495448204C4F4E47205249474854204C454720),
  (0x19F, 0x4C4154494E204341504954414C204C4554544552204F2057495448204D4944444C452054494C444520),
  (0x1A0, 0x4C4154494E204341504954414C204C4554544552204F205749544820484F524E20),
  (0x1A1, 0x4C4154494E20534D414C4C204C4554544552204F205749544820484F524E20),
  (0x1A2, 0x4C4154494E204341504954414C204C4554544552204F4920),
  (0x1A3, 0x4C4154494E20534D414C4C204C4554544552204F4920),
  (0x1A4, 0x4C4154494E204341504954414C204C45545445522050205749544820484F4F4B20),
  (0x1A5, 0x4C4154494E20534D414C4C204C45545445522050205749544820484F4F4B20),
  (0x1A6, 0x4C4154494E204C455454455220595220),
  (0x1A7, 0x4C4154494E204341504954414C204C455454455220544F4E452054574F20),
  (0x1A8, 0x4C4154494E20534D414C4C204C455454455220544F4E452054574F20),
  (0x1A9, 0x4C4154494E204341504954414C204C45545445522045534820),
  (0x1AA, 0x4C4154494E204C455454455220524556455253454420455348204C4F4F5020),
  (0x1AB, 0x4C4154494E20534D414C4C204C4554544552205420574954482050414C4154414C20484F4F4B20),
  (0x1AC, 0x4C4154494E204341504954414C204C45545445522054205749544820484F4F4B20),
  (0x1AD, 0x4C4154494E20534D414C4C204C45545445522054205749544820484F4F4B20),
  (0x1AE, 0x4C4154494E204341504954414C204C45545445522054205749544820524554524F464C455820484F4F4B20),
  (0x1AF, 0x4C4154494E204341504954414C204C45545445522055205749544820484F524E20),
  (0x1B0, 0x4C4154494E20534D414C4C204C45545445522055205749544820484F524E20),
  (0x1B1, 0x4C4154494E204341504954414C204C455454455220555053494C4F4E20),
  (0x1B2, 0x4C4154494E204341504954414C204C45545445522056205749544820484F4F4B20),
  (0x1B3, 0x4C4154494E204341504954414C204C45545445522059205749544820484F4F4B20),
  (0x1B4, 0x4C4154494E20534D414C4C204C45545445522059205749544820484F4F4B20),
  (0x1B5, 0x4C4154494E204341504954414C204C4554544552205A2057495448205354524F4B4520),
  (0x1B6, 0x4C4154494E20534D414C4C204C4554544552205A2057495448205354524F4B4520),
  (0x1B7, 0x4C4154494E204341504954414C204C455454455220455A4820),
  (0x1B8, 0x4C4154494E204341504954414C204C455454455220455A4820524556455253454420),
  (0x1B9, 0x4C4154494E20534D414C4C204C455454455220455A4820524556455253454420),
  (0x1BA, 0x4C4154494E20534D414C4C204C455454455220455A482057495448205441494C20),
  (0x1BB, 0x4C4154494E204C45545445522054574F2057495448205354524F4B4520),
  (0x1BC, 0x4C4154494E204341504954414C204C455454455220544F4E45204649564520),
  (0x1BD, 0x4C4154494E20534D414C4C204C455454455220544F4E45204649564520),
  (0x1BE, 0x4C4154494E204C455454455220494E56455254454420474C4F5454414C2053544F502057495448205354524F4B4520),
  (0x1BF, 0x4C4154494E204C45545445522057594E4E20),
  (0x1C0, 0x4C4154494E204C45545445522044454E54414C20434C49434B20)]
def names_6 : List (Nat × Nat) := [
  (0x1C1, 0x4C4154494E204C4554544552204C41544552414C20434C49434B20),
  (0x1C2, 0x4C4154494E204C455454455220414C56454F4C415220434C49434B20),
  (0x1C3, 0x4C4154494E204C455454455220524554524F464C455820434C49434B20),
  (0x1C4, 0x4C4154494E204341504954414C204C455454455220445A2057495448204341524F4E20),
  (0x1C5, 0x4C4154494E204341504954414C204C45545445522044205749544820534D414C4C204C4554544552205A2057495448204341524F4E20),
  (0x1C6, 0x4C4154494E20534D414C4C204C455454455220445A2057495448204341524F4E20),
  (0x1C7, 0x4C4154494E204341504954414C204C4554544552204C4A20),
  (0x1C8, 0x4C4154494E204341504954414C204C4554544552204C205749544820534D414C4C204C4554544552204A20),
  (0x1C9, 0x4C4154494E20534D414C4C204C4554544552204C4A20),
  (0x1CA, 0x4C4154494E204341504954414C204C4554544552204E4A20),
  (0x1CB, 0x4C4154494E204341504954414C204C4554544552204E205749544820534D414C4C204C4554544552204A20),
  (0x1CC, 0x4C4154494E20534D414C4C204C4554544552204E4A20),
  (0x1CD, 0x4C4154494E204341504954414C204C455454455220412057495448204341524F4E20),
  (0x1CE, 0x4C4154494E20534D414C4C204C455454455220412057495448204341524F4E20),
  (0x1CF, 0x4C4154494E204341504954414C204C455454455220492057495448204341524F4E20),
  (0x1D0, 0x4C4154494E20534D414C4C204C455454455220492057495448204341524F4E20),
  (0x1D1, 0x4C4154494E204341504954414C204C4554544552204F2057495448204341524F4E20),
  (0x1D2, 0x4C4154494E20534D414C4C204C4554544552204F2057495448204341524F4E20),
  (0x1D3, 0x4C4154494E204341504954414C204C455454455220552057495448204341524F4E20),
  (0x1D4, 0x4C4154494E20534D414C4C204C455454455220552057495448204341524F4E20),
  (0x1D5, 0x4C4154494E204341504954414C204C4554544552205520574954482044494145524553495320414E44204D4143524F4E20),
  (0x1D6, 0x4C4154494E20534D414C4C204C4554544552205520574954482044494145524553495320414E44204D4143524F4E20),
  (0x1D7, 0x4C4154494E204341504954414C204C4554544552205520574954482044494145524553495320414E4420414355544520),
  (0x1D8, 0x4C4154494E20534D414C4C204C4554544552205520574954482044494145524553495320414E4420414355544520),
  (0x1D9, 0x4C4154494E204341504954414C204C4554544552205520574954482044494145524553495320414E44204341524F4E20),
  (0x1DA, 0x4C4154494E20534D414C4C204C4554544552205520574954482044494145524553495320414E44204341524F4E20),
  (0x1DB, 0x4C4154494E204341504954414C204C4554544552205520574954482044494145524553495320414E4420475241564520),
  (0x1DC, 0x4C4154494E20534D414C4C204C4554544552205520574954482044494145524553495320414E4420475241564520),
  (0x1DD, 0x4C4154494E20534D414C4C204C4554544552205455524E4544204520),
  (0x1DE, 0x4C4154494E204341504954414C204C4554544552204120574954482044494145524553495320414E44204D4143524F4E20),
  (0x1DF, 0x4C4154494E20534D414C4C204C4554544552204120574954482044494145524553495320414E44204D4143524F4E20),
  (0x1E0, 0x4C4154494E204341504954414C204C45545445522041205749544820444F542041424F564520414E44204D4143524F4E20),
  (0x1E1, 0x4C4154494E20534D414C4C204C45545445522041205749544820444F542041424F564520414E44204D4143524F4E20),
  (0x1E2, 0x4C4154494E204341504954414C204C45545445522041452057495448204D4143524F4E20),
  (0x1E3, 0x4C4154494E20534D414C4C204C45545445522041452057495448204D4143524F4E20),
  (0x1E4, 0x4C4154494E204341504954414C204C455454455220472057495448205354524F4B4520),
  (0x1E5, 0x4C4154494E20534D414C4C204C455454455220472057495448205354524F4B4520),
  (0x1E6, 0x4C4154494E204341504954414C204C455454455220472057495448204341524F4E20),
  (0x1E7, 0x4C4154494E20534D414C4C204C455454455220472057495448204341524F4E20),
  (0x1E8, 0x4C4154494E204341504954414C204C4554544552204B2057495448204341524F4E20),
  (0x1E9, 0x4C4154494E20534D414C4C204C4554544552204B2057495448204341524F4E20),
  (0x1EA, 0x4C4154494E204341504954414C204C4554544552204F2057495448204F474F4E454B20),
  (0x1EB, 0x4C4154494E20534D414C4C204C4554544552204F2057495448204F474F4E454B20),
  (0x1EC, 0x4C4154494E204341504954414C204C4554544552204F2057495448204F474F4E454B20414E44204D4143524F4E20),
  (0x1ED, 0x4C4154494E20534D414C4C204C4554544552204F2057495448204F474F4E454B20414E44204D4143524F4E20),
  (0x1EE, 0x4C4154494E204341504954414C204C455454455220455A482057495448204341524F4E20),
  (0x1EF, 0x4C4154494E20534D414C4C204C455454455220455A482057495448204341524F4E20),
  (0x1F0, 0x4C4154494E20534D414C4C204C4554544552204A2057495448204341524F4E20),
  (0x1F1, 0x4C4154494E204341504954414C204C455454455220445A20),
  (0x1F2, 0x4C4154494E204341504954414C204C45545445522044205749544820534D414C4C204C4554544552205A20),
  (0x1F3, 0x4C4154494E20534D414C4C204C455454455220445A20),
  (0x1F4, 0x4C4154494E204341504954414C204C45545445522047205749544820414355544520),
  (0x1F5, 0x4C4154494E20534D414C4C204C45545445522047205749544820414355544520),
  (0x1F6, 0x4C4154494E204341504954414C204C455454455220485741495220),
  (0x1F7, 0x4C4154494E204341504954414C204C45545445522057594E4E20),
  (0x1F8, 0x4C4154494E204341504954414C204C4554544552204E205749544820475241564520),
  (0x1F9, 0x4C4154494E20534D414C4C204C4554544552204E205749544820475241564520),
  (0x1FA, 0x4C4154494E204341504954414C204C4554544552204120574954482052494E472041424F564520414E4420414355544520),
  (0x1FB, 0x4C4154494E20534D414C4C204C4554544552204120574954482052494E472041424F564520414E4420414355544520),
  (0x1FC, 0x4C4154494E204341504954414C204C4554544552204145205749544820414355544520),
  (0x1FD, 0x4C4154494E20534D414C4C204C4554544552204145205749544820414355544520),
  (0x1FE, 0x4C4154494E204341504954414C204C4554544552204F2057495448205354524F4B4520414E4420414355544520),
  (0x1FF, 0x4C4154494E20534D414C4C204C4554544552204F2057495448205354524F4B4520414E4420414355544520),
  (0x200, 0x4C4154494E204341504954414C204C45545445522041205749544820444F55424C4520475241564520)]
def names_7 : List (Nat × Nat) := [
  (0x201, 0x4C4154494E20534D414C4C204C45545445522041205749544820444F55424C4520475241564520),
  (0x202, 0x4C4154494E204341504954414C204C45545445522041205749544820494E56455254454420425245564520),
  (0x203, 0x4C4154494E20534D414C4C204C45545445522041205749544820494E56455254454420425245564520),
  (0x204, 0x4C4154494E204341504954414C204C45545445522045205749544820444F55424C4520475241564520),
  (0x205, 0x4C4154494E20534D414C4C204C45545445522045205749544820444F55424C4520475241564520),
  (0x206, 0x4C4154494E204341504954414C204C45545445522045205749544820494E56455254454420425245564520),
  (0x207, 0x4C4154494E20534D414C4C204C45545445522045205749544820494E56455254454420425245564520),
  (0x208, 0x4C4154494E204341504954414C204C45545445522049205749544820444F55424C4520475241564520),
  (0x209, 0x4C4154494E20534D414C4C204C45545445522049205749544820444F55424C4520475241564520),
  (0x20A, 0x4C4154494E204341504954414C204C45545445522049205749544820494E56455254454420425245564520),
  (0x20B, 0x4C4154494E20534D414C4C204C45545445522049205749544820494E56455254454420425245564520),
  (0x20C, 0x4C4154494E204341504954414C204C4554544552204F205749544820444F55424C4520475241564520),
  (0x20D, 0x4C4154494E20534D414C4C204C4554544552204F205749544820444F55424C4520475241564520),
  (0x20E, 0x4C4154494E204341504954414C204C4554544552204F205749544820494E56455254454420425245564520),
  (0x20F, 0x4C4154494E20534D414C4C204C4554544552204F205749544820494E56455254454420425245564520),
  (0x210, 0x4C4154494E204341504954414C204C45545445522052205749544820444F55424C4520475241564520),
  (0x211, 0x4C4154494E20534D414C4C204C45545445522052205749544820444F55424C4520475241564520),
  (0x212, 0x4C4154494E204341504954414C204C45545445522052205749544820494E56455254454420425245564520),
  (0x213, 0x4C4154494E20534D414C4C204C45545445522052205749544820494E56455254454420425245564520),
  (0x214, 0x4C4154494E204341504954414C204C45545445522055205749544820444F55424C4520475241564520),
  (0x215, 0x4C4154494E20534D414C4C204C45545445522055205749544820444F55424C4520475241564520),
  (0x216, 0x4C4154494E204341504954414C204C45545445522055205749544820494E56455254454420425245564520),
  (0x217, 0x4C4154494E20534D414C4C204C45545445522055205749544820494E56455254454420425245564520),
  (0x218, 0x4C4154494E204341504954414C204C45545445522053205749544820434F4D4D412042454C4F5720),
  (0x219, 0x4C4154494E20534D414C4C204C45545445522053205749544820434F4D4D412042454C4F5720),
  (0x21A, 0x4C4154494E204341504954414C204C45545445522054205749544820434F4D4D412042454C4F5720),
  (0x21B, 0x4C4154494E20534D414C4C204C45545445522054205749544820434F4D4D412042454C4F5720),
  (0x21C, 0x4C4154494E204341504954414C204C455454455220594F474820),
  (0x21D, 0x4C4154494E20534D414C4C204C455454455220594F474820),
  (0x21E, 0x4C4154494E204341504954414C204C455454455220482057495448204341524F4E20),
  (0x21F, 0x4C4154494E20534D414C4C204C455454455220482057495448204341524F4E20),
  (0x220, 0x4C4154494E204341504954414C204C4554544552204E2057495448204C4F4E47205249474854204C454720),
  (0x221, 0x4C4154494E20534D414C4C204C455454455220442057495448204355524C20),
  (0x222, 0x4C4154494E204341504954414C204C4554544552204F5520),
  (0x223, 0x4C4154494E20534D414C4C204C4554544552204F5520),
  (0x224, 0x4C4154494E204341504954414C204C4554544552205A205749544820484F4F4B20),
  (0x225, 0x4C4154494E20534D414C4C204C4554544552205A205749544820484F4F4B20),
  (0x226, 0x4C4154494E204341504954414C204C45545445522041205749544820444F542041424F564520),
  (0x227, 0x4C4154494E20534D414C4C204C45545445522041205749544820444F542041424F564520),
  (0x228, 0x4C4154494E204341504954414C204C45545445522045205749544820434544494C4C4120),
  (0x229, 0x4C4154494E20534D414C4C204C45545445522045205749544820434544494C4C4120),
  (0x22A, 0x4C4154494E204341504954414C204C4554544552204F20574954482044494145524553495320414E44204D4143524F4E20),
  (0x22B, 0x4C4154494E20534D414C4C204C4554544552204F20574954482044494145524553495320414E44204D4143524F4E20),
  (0x22C, 0x4C4154494E204341504954414C204C4554544552204F20574954482054494C444520414E44204D4143524F4E20),
  (0x22D, 0x4C4154494E20534D414C4C204C4554544552204F20574954482054494C444520414E44204D4143524F4E20),
  (0x22E, 0x4C4154494E204341504954414C204C4554544552204F205749544820444F542041424F564520),
  (0x22F, 0x4C4154494E20534D414C4C204C4554544552204F205749544820444F542041424F564520),
  (0x230, 0x4C4154494E204341504954414C204C4554544552204F205749544820444F542041424F564520414E44204D4143524F4E20),
  (0x231, 0x4C4154494E20534D414C4C204C4554544552204F205749544820444F542041424F564520414E44204D4143524F4E20),
  (0x232, 0x4C4154494E204341504954414C204C455454455220592057495448204D4143524F4E20),
  (0x233, 0x4C4154494E20534D414C4C204C455454455220592057495448204D4143524F4E20),
  (0x234, 0x4C4154494E20534D414C4C204C4554544552204C2057495448204355524C20),
  (0x235, 0x4C4154494E20534D414C4C204C4554544552204E2057495448204355524C20),
  (0x236, 0x4C4154494E20534D414C4C204C455454455220542057495448204355524C20),
  (0x237, 0x4C4154494E20534D414C4C204C455454455220444F544C455353204A20),
  (0x238, 0x4C4154494E20534D414C4C204C4554544552204442204449475241504820),
  (0x239, 0x4C4154494E20534D414C4C204C4554544552205150204449475241504820),
  (0x23A, 0x4C4154494E204341504954414C204C455454455220412057495448205354524F4B4520),
  (0x23B, 0x4C4154494E204341504954414C204C455454455220432057495448205354524F4B4520),
  (0x23C, 0x4C4154494E20534D414C4C204C455454455220432057495448205354524F4B4520),
  (0x23D, 0x4C4154494E204341504954414C204C4554544552204C20574954482042415220),
  (0x23E, 0x4C4154494E204341504954414C204C45545445522054205749544820444941474F4E414C205354524F4B4520),
  (0x23F, 0x4C4154494E20534D414C4C204C455454455220532057495448205357415348205441494C20),
  (0x240, 0x4C4154494E20534D414C4C204C4554544552205A2057495448205357415348205441494C20)]
def names_8 : List (Nat × Nat) := [
  (0x241, 0x4C4154494E204341504954414C204C455454455220474C4F5454414C2053544F5020),
  (0x242, 0x4C4154494E20534D414C4C204C455454455220474C4F5454414C2053544F5020),
  (0x243, 0x4C4154494E204341504954414C204C455454455220422057495448205354524F4B4520),
  (0x244, 0x4C4154494E204341504954414C204C455454455220552042415220),
  (0x245, 0x4C4154494E204341504954414C204C4554544552205455524E4544205620),
  (0x246, 0x4C4154494E204341504954414C204C455454455220452057495448205354524F4B4520),
  (0x247, 0x4C4154494E20534D414C4C204C455454455220452057495448205354524F4B4520),
  (0x248, 0x4C4154494E204341504954414C204C4554544552204A2057495448205354524F4B4520),
  (0x249, 0x4C4154494E20534D414C4C204C4554544552204A2057495448205354524F4B4520),
  (0x24A, 0x4C4154494E204341504954414C204C455454455220534D414C4C2051205749544820484F4F4B205441494C20),
  (0x24B, 0x4C4154494E20534D414C4C204C45545445522051205749544820484F4F4B205441494C20),
  (0x24C, 0x4C4154494E204341504954414C204C455454455220522057495448205354524F4B4520),
  (0x24D, 0x4C4154494E20534D414C4C204C455454455220522057495448205354524F4B4520),
  (0x24E, 0x4C4154494E204341504954414C204C455454455220592057495448205354524F4B4520),
  (0x24F, 0x4C4154494E20534D414C4C204C455454455220592057495448205354524F4B4520),
  (0x250, 0x4C4154494E20534D414C4C204C4554544552205455524E4544204120),
  (0x251, 0x4C4154494E20534D414C4C204C455454455220414C50484120),
  (0x252, 0x4C4154494E20534D414C4C204C4554544552205455524E454420414C50484120),
  (0x253, 0x4C4154494E20534D414C4C204C45545445522042205749544820484F4F4B20),
  (0x254, 0x4C4154494E20534D414C4C204C4554544552204F50454E204F20),
  (0x255, 0x4C4154494E20534D414C4C204C455454455220432057495448204355524C20),
  (0x256, 0x4C4154494E20534D414C4C204C455454455220442057495448205441494C20),
  (0x257, 0x4C4154494E20534D414C4C204C45545445522044205749544820484F4F4B20),
  (0x258, 0x4C4154494E20534D414C4C204C4554544552205245564552534544204520),
  (0x259, 0x4C4154494E20534D414C4C204C455454455220534348574120),
  (0x25A, 0x4C4154494E20534D414C4C204C4554544552205343485741205749544820484F4F4B20),
  (0x25B, 0x4C4154494E20534D414C4C204C4554544552204F50454E204520),
  (0x25C, 0x4C4154494E20534D414C4C204C4554544552205245564552534544204F50454E204520),
  (0x25D, 0x4C4154494E20534D414C4C204C4554544552205245564552534544204F50454E2045205749544820484F4F4B20),
  (0x25E, 0x4C4154494E20534D414C4C204C455454455220434C4F534544205245564552534544204F50454E204520),
  (0x25F, 0x4C4154494E20534D414C4C204C455454455220444F544C455353204A2057495448205354524F4B4520),
  (0x260, 0x4C4154494E20534D414C4C204C45545445522047205749544820484F4F4B20),
  (0x261, 0x4C4154494E20534D414C4C204C455454455220534352495054204720),
  (0x262, 0x4C4154494E204C455454455220534D414C4C204341504954414C204720),
  (0x263, 0x4C4154494E20534D414C4C204C45545445522047414D4D4120),
  (0x264, 0x4C4154494E20534D414C4C204C45545445522052414D5320484F524E20),
  (0x265, 0x4C4154494E20534D414C4C204C4554544552205455524E4544204820),
  (0x266, 0x4C4154494E20534D414C4C204C45545445522048205749544820484F4F4B20),
  (0x267, 0x4C4154494E20534D414C4C204C45545445522048454E47205749544820484F4F4B20),
  (0x268, 0x4C4154494E20534D414C4C204C455454455220492057495448205354524F4B4520),
  (0x269, 0x4C4154494E20534D414C4C204C455454455220494F544120),
  (0x26A, 0x4C4154494E204C455454455220534D414C4C204341504954414C204920),
  (0x26B, 0x4C4154494E20534D414C4C204C4554544552204C2057495448204D4944444C452054494C444520),
  (0x26C, 0x4C4154494E20534D414C4C204C4554544552204C20574954482042454C5420),
  (0x26D, 0x4C4154494E20534D414C4C204C4554544552204C205749544820524554524F464C455820484F4F4B20),
  (0x26E, 0x4C4154494E20534D414C4C204C4554544552204C455A4820),
  (0x26F, 0x4C4154494E20534D414C4C204C4554544552205455524E4544204D20),
  (0x270, 0x4C4154494E20534D414C4C204C4554544552205455524E4544204D2057495448204C4F4E47204C454720),
  (0x271, 0x4C4154494E20534D414C4C204C4554544552204D205749544820484F4F4B20),
  (0x272, 0x4C4154494E20534D414C4C204C4554544552204E2057495448204C45465420484F4F4B20),
  (0x273, 0x4C4154494E20534D414C4C204C4554544552204E205749544820524554524F464C455820484F4F4B20),
  (0x274, 0x4C4154494E204C455454455220534D414C4C204341504954414C204E20),
  (0x275, 0x4C4154494E20534D414C4C204C455454455220424152524544204F20),
  (0x276, 0x4C4154494E204C455454455220534D414C4C204341504954414C204F4520),
  (0x277, 0x4C4154494E20534D414C4C204C455454455220434C4F534544204F4D45474120),
  (0x278, 0x4C4154494E20534D414C4C204C45545445522050484920),
  (0x279, 0x4C4154494E20534D414C4C204C4554544552205455524E4544205220),
  (0x27A, 0x4C4154494E20534D414C4C204C4554544552205455524E454420522057495448204C4F4E47204C454720),
  (0x27B, 0x4C4154494E20534D414C4C204C4554544552205455524E45442052205749544820484F4F4B20),
  (0x27C, 0x4C4154494E20534D414C4C204C455454455220522057495448204C4F4E47204C454720),
  (0x27D, 0x4C4154494E20534D414C4C204C455454455220522057495448205441494C20),
  (0x27E, 0x4C4154494E20534D414C4C204C4554544552205220574954482046495348484F4F4B20),
  (0x27F, 0x4C4154494E20534D414C4C204C4554544552205245564552534544205220574954482046495348484F4F4B20),
  (0x280, 0x4C4154494E204C455454455220534D414C4C204341504954414C205220)]
def names_9 : List (Nat × Nat) := [
  (0x281, 0x4C4154494E204C455454455220534D414C4C204341504954414C20494E564552544544205220),
  (0x282, 0x4C4154494E20534D414C4C204C45545445522053205749544820484F4F4B20),
  (0x283, 0x4C4154494E20534D414C4C204C45545445522045534820),
  (0x284, 0x4C4154494E20534D414C4C204C455454455220444F544C455353204A2057495448205354524F4B4520414E4420484F4F4B20),
  (0x285, 0x4C4154494E20534D414C4C204C45545445522053515541542052455645525345442045534820),
  (0x286, 0x4C4154494E20534D414C4C204C4554544552204553482057495448204355524C20),
  (0x287, 0x4C4154494E20534D414C4C204C4554544552205455524E4544205420),
  (0x288, 0x4C4154494E20534D414C4C204C45545445522054205749544820524554524F464C455820484F4F4B20),
  (0x289, 0x4C4154494E20534D414C4C204C455454455220552042415220),
  (0x28A, 0x4C4154494E20534D414C4C204C455454455220555053494C4F4E20),
  (0x28B, 0x4C4154494E20534D414C4C204C45545445522056205749544820484F4F4B20),
  (0x28C, 0x4C4154494E20534D414C4C204C4554544552205455524E4544205620),
  (0x28D, 0x4C4154494E20534D414C4C204C4554544552205455524E4544205720),
  (0x28E, 0x4C4154494E20534D414C4C204C4554544552205455524E4544205920),
  (0x28F, 0x4C4154494E204C455454455220534D414C4C204341504954414C205920),
  (0x290, 0x4C4154494E20534D414C4C204C4554544552205A205749544820524554524F464C455820484F4F4B20),
  (0x291, 0x4C4154494E20534D414C4C204C4554544552205A2057495448204355524C20),
  (0x292, 0x4C4154494E20534D414C4C204C455454455220455A4820),
  (0x293, 0x4C4154494E20534D414C4C204C455454455220455A482057495448204355524C20),
  (0x294, 0x4C4154494E204C455454455220474C4F5454414C2053544F5020),
  (0x295, 0x4C4154494E204C45545445522050484152594E4745414C20564F494345442046524943415449564520),
  (0x296, 0x4C4154494E204C455454455220494E56455254454420474C4F5454414C2053544F5020),
  (0x297, 0x4C4154494E204C455454455220535452455443484544204320),
  (0x298, 0x4C4154494E204C45545445522042494C414249414C20434C49434B20),
  (0x299, 0x4C4154494E204C455454455220534D414C4C204341504954414C204220),
  (0x29A, 0x4C4154494E20534D414C4C204C455454455220434C4F534544204F50454E204520),
  (0x29B, 0x4C4154494E204C455454455220534D414C4C204341504954414C2047205749544820484F4F4B20),
  (0x29C, 0x4C4154494E204C455454455220534D414C4C204341504954414C204820),
  (0x29D, 0x4C4154494E20534D414C4C204C4554544552204A20574954482043524F535345442D5441494C20),
  (0x29E, 0x4C4154494E20534D414C4C204C4554544552205455524E4544204B20),
  (0x29F, 0x4C4154494E204C455454455220534D414C4C204341504954414C204C20),
  (0x2A0, 0x4C4154494E20534D414C4C204C45545445522051205749544820484F4F4B20),
  (0x2A1, 0x4C4154494E204C455454455220474C4F5454414C2053544F502057495448205354524F4B4520),
  (0x2A2, 0x4C4154494E204C455454455220524556455253454420474C4F5454414C2053544F502057495448205354524F4B4520),
  (0x2A3, 0x4C4154494E20534D414C4C204C455454455220445A204449475241504820),
  (0x2A4, 0x4C4154494E20534D414C4C204C45545445522044455A48204449475241504820),
  (0x2A5, 0x4C4154494E20534D414C4C204C455454455220445A20444947524150482057495448204355524C20),
  (0x2A6, 0x4C4154494E20534D414C4C204C4554544552205453204449475241504820),
  (0x2A7, 0x4C4154494E20534D414C4C204C45545445522054455348204449475241504820),
  (0x2A8, 0x4C4154494E20534D414C4C204C455454455220544320444947524150482057495448204355524C20),
  (0x2A9, 0x4C4154494E20534D414C4C204C45545445522046454E47204449475241504820),
  (0x2AA, 0x4C4154494E20534D414C4C204C4554544552204C53204449475241504820),
  (0x2AB, 0x4C4154494E20534D414C4C204C4554544552204C5A204449475241504820),
  (0x2AC, 0x4C4154494E204C45545445522042494C414249414C205045524355535349564520),
  (0x2AD, 0x4C4154494E204C455454455220424944454E54414C205045524355535349564520),
  (0x2AE, 0x4C4154494E20534D414C4C204C4554544552205455524E4544204820574954482046495348484F4F4B20),
  (0x2AF, 0x4C4154494E20534D414C4C204C4554544552205455524E4544204820574954482046495348484F4F4B20414E44205441494C20),
  (0x2B0, 0x4D4F444946494552204C455454455220534D414C4C204820),
  (0x2B1, 0x4D4F444946494552204C455454455220534D414C4C2048205749544820484F4F4B20),
  (0x2B2, 0x4D4F444946494552204C455454455220534D414C4C204A20),
  (0x2B3, 0x4D4F444946494552204C455454455220534D414C4C205220),
  (0x2B4, 0x4D4F444946494552204C455454455220534D414C4C205455524E4544205220),
  (0x2B5, 0x4D4F444946494552204C455454455220534D414C4C205455524E45442052205749544820484F4F4B20),
  (0x2B6, 0x4D4F444946494552204C455454455220534D414C4C204341504954414C20494E564552544544205220),
  (0x2B7, 0x4D4F444946494552204C455454455220534D414C4C205720),
  (0x2B8, 0x4D4F444946494552204C455454455220534D414C4C205920),
  (0x2B9, 0x4D4F444946494552204C4554544552205052494D4520),
  (0x2BA, 0x4D4F444946494552204C455454455220444F55424C45205052494D4520),
  (0x2BB, 0x4D4F444946494552204C4554544552205455524E454420434F4D4D4120),
  (0x2BC, 0x4D4F444946494552204C45545445522041504F5354524F50484520),
  (0x2BD, 0x4D4F444946494552204C455454455220524556455253454420434F4D4D4120),
  (0x2BE, 0x4D4F444946494552204C45545445522052494748542048414C462052494E4720),
  (0x2BF, 0x4D4F444946494552204C4554544552204C4546542048414C462052494E4720),
  (0x2C0, 0x4D4F444946494552204C455454455220474C4F5454414C2053544F5020)]
def names_10 : List (Nat × Nat) := [
  (0x2C1, 0x4D4F444946494552204C455454455220524556455253454420474C4F5454414C2053544F5020),
  (0x2C2, 0x4D4F444946494552204C4554544552204C454654204152524F574845414420),
  (0x2C3, 0x4D4F444946494552204C4554544552205249474854204152524F574845414420),
  (0x2C4, 0x4D4F444946494552204C4554544552205550204152524F574845414420),
  (0x2C5, 0x4D4F444946494552204C455454455220444F574E204152524F574845414420),
  (0x2C6, 0x4D4F444946494552204C45545445522043495243554D464C455820414343454E5420),
  (0x2C7, 0x4341524F4E20),
  (0x2C8, 0x4D4F444946494552204C455454455220564552544943414C204C494E4520),
  (0x2C9, 0x4D4F444946494552204C4554544552204D4143524F4E20),
  (0x2CA, 0x4D4F444946494552204C455454455220414355544520414343454E5420),
  (0x2CB, 0x4D4F444946494552204C455454455220475241564520414343454E5420),
  (0x2CC, 0x4D4F444946494552204C4554544552204C4F5720564552544943414C204C494E4520),
  (0x2CD, 0x4D4F444946494552204C4554544552204C4F57204D4143524F4E20),
  (0x2CE, 0x4D4F444946494552204C4554544552204C4F5720475241564520414343454E5420),
  (0x2CF, 0x4D4F444946494552204C4554544552204C4F5720414355544520414343454E5420),
  (0x2D0, 0x4D4F444946494552204C455454455220545249414E47554C415220434F4C4F4E20),
  (0x2D1, 0x4D4F444946494552204C45545445522048414C4620545249414E47554C415220434F4C4F4E20),
  (0x2D2, 0x4D4F444946494552204C45545445522043454E545245442052494748542048414C462052494E4720),
  (0x2D3, 0x4D4F444946494552204C45545445522043454E54524544204C4546542048414C462052494E4720),
  (0x2D4, 0x4D4F444946494552204C4554544552205550205441434B20),
  (0x2D5, 0x4D4F444946494552204C455454455220444F574E205441434B20),
  (0x2D6, 0x4D4F444946494552204C455454455220504C5553205349474E20),
  (0x2D7, 0x4D4F444946494552204C4554544552204D494E5553205349474E20),
  (0x2D8, 0x425245564520),
  (0x2D9, 0x444F542041424F564520),
  (0x2DA, 0x52494E472041424F564520),
  (0x2DB, 0x4F474F4E454B20),
  (0x2DC, 0x534D414C4C2054494C444520),
  (0x2DD, 0x444F55424C4520414355544520414343454E5420),
  (0x2DE, 0x4D4F444946494552204C45545445522052484F54494320484F4F4B20),
  (0x2DF, 0x4D4F444946494552204C45545445522043524F535320414343454E5420),
  (0x2E0, 0x4D4F444946494552204C455454455220534D414C4C2047414D4D4120),
  (0x2E1, 0x4D4F444946494552204C455454455220534D414C4C204C20),
  (0x2E2, 0x4D4F444946494552204C455454455220534D414C4C205320),
  (0x2E3, 0x4D4F444946494552204C455454455220534D414C4C205820),
  (0x2E4, 0x4D4F444946494552204C455454455220534D414C4C20524556455253454420474C4F5454414C2053544F5020),
  (0x2E5, 0x4D4F444946494552204C45545445522045585452412D4849474820544F4E452042415220),
  (0x2E6, 0x4D4F444946494552204C4554544552204849474820544F4E452042415220),
  (0x2E7, 0x4D4F444946494552204C4554544552204D494420544F4E452042415220),
  (0x2E8, 0x4D4F444946494552204C4554544552204C4F5720544F4E452042415220),
  (0x2E9, 0x4D4F444946494552204C45545445522045585452412D4C4F5720544F4E452042415220),
  (0x2EA, 0x4D4F444946494552204C45545445522059494E20444550415254494E4720544F4E45204D41524B20),
  (0x2EB, 0x4D4F444946494552204C45545445522059414E4720444550415254494E4720544F4E45204D41524B20),
  (0x2EC, 0x4D4F444946494552204C455454455220564F4943494E4720),
  (0x2ED, 0x4D4F444946494552204C455454455220554E41535049524154454420),
  (0x2EE, 0x4D4F444946494552204C455454455220444F55424C452041504F5354524F50484520),
  (0x2EF, 0x4D4F444946494552204C4554544552204C4F5720444F574E204152524F574845414420),
  (0x2F0, 0x4D4F444946494552204C4554544552204C4F57205550204152524F574845414420),
  (0x2F1, 0x4D4F444946494552204C4554544552204C4F57204C454654204152524F574845414420),
  (0x2F2, 0x4D4F444946494552204C4554544552204C4F57205249474854204152524F574845414420),
  (0x2F3, 0x4D4F444946494552204C4554544552204C4F572052494E4720),
  (0x2F4, 0x4D4F444946494552204C4554544552204D4944444C4520475241564520414343454E5420),
  (0x2F5, 0x4D4F444946494552204C4554544552204D4944444C4520444F55424C4520475241564520414343454E5420),
  (0x2F6, 0x4D4F444946494552204C4554544552204D4944444C4520444F55424C4520414355544520414343454E5420),
  (0x2F7, 0x4D4F444946494552204C4554544552204C4F572054494C444520),
  (0x2F8, 0x4D4F444946494552204C45545445522052414953454420434F4C4F4E20),
  (0x2F9, 0x4D4F444946494552204C455454455220424547494E204849474820544F4E4520),
  (0x2FA, 0x4D4F444946494552204C455454455220454E44204849474820544F4E4520),
  (0x2FB, 0x4D4F444946494552204C455454455220424547494E204C4F5720544F4E4520),
  (0x2FC, 0x4D4F444946494552204C455454455220454E44204C4F5720544F4E4520),
  (0x2FD, 0x4D4F444946494552204C4554544552205348454C4620),
  (0x2FE, 0x4D4F444946494552204C4554544552204F50454E205348454C4620),
  (0x2FF, 0x4D4F444946494552204C4554544552204C4F57204C454654204152524F5720),
  (0x300, 0x434F4D42494E494E4720475241564520414343454E5420)]
def names_11 : List (Nat × Nat) := [
  (0x301, 0x434F4D42494E494E4720414355544520414343454E5420),
  (0x302, 0x434F4D42494E494E472043495243554D464C455820414343454E5420),
  (0x303, 0x434F4D42494E494E472054494C444520),
  (0x304, 0x434F4D42494E494E47204D4143524F4E20),
  (0x305, 0x434F4D42494E494E47204F5645524C494E4520),
  (0x306, 0x434F4D42494E494E4720425245564520),
  (0x307, 0x434F4D42494E494E4720444F542041424F564520),
  (0x308, 0x434F4D42494E494E472044494145524553495320),
  (0x309, 0x434F4D42494E494E4720484F4F4B2041424F564520),
  (0x30A, 0x434F4D42494E494E472052494E472041424F564520),
  (0x30B, 0x434F4D42494E494E4720444F55424C4520414355544520414343454E5420),
  (0x30C, 0x434F4D42494E494E47204341524F4E20),
  (0x30D, 0x434F4D42494E494E4720564552544943414C204C494E452041424F564520),
  (0x30E, 0x434F4D42494E494E4720444F55424C4520564552544943414C204C494E452041424F564520),
  (0x30F, 0x434F4D42494E494E4720444F55424C4520475241564520414343454E5420),
  (0x310, 0x434F4D42494E494E472043414E44524142494E445520),
  (0x311, 0x434F4D42494E494E4720494E56455254454420425245564520),
  (0x312, 0x434F4D42494E494E47205455524E454420434F4D4D412041424F564520),
  (0x313, 0x434F4D42494E494E4720434F4D4D412041424F564520),
  (0x314, 0x434F4D42494E494E4720524556455253454420434F4D4D412041424F564520),
  (0x315, 0x434F4D42494E494E4720434F4D4D412041424F564520524947485420),
  (0x316, 0x434F4D42494E494E4720475241564520414343454E542042454C4F5720),
  (0x317, 0x434F4D42494E494E4720414355544520414343454E542042454C4F5720),
  (0x318, 0x434F4D42494E494E47204C454654205441434B2042454C4F5720),
  (0x319, 0x434F4D42494E494E47205249474854205441434B2042454C4F5720),
  (0x31A, 0x434F4D42494E494E47204C45465420414E474C452041424F564520),
  (0x31B, 0x434F4D42494E494E4720484F524E20),
  (0x31C, 0x434F4D42494E494E47204C4546542048414C462052494E472042454C4F5720),
  (0x31D, 0x434F4D42494E494E47205550205441434B2042454C4F5720),
  (0x31E, 0x434F4D42494E494E4720444F574E205441434B2042454C4F5720),
  (0x31F, 0x434F4D42494E494E4720504C5553205349474E2042454C4F5720),
  (0x320, 0x434F4D42494E494E47204D494E5553205349474E2042454C4F5720),
  (0x321, 0x434F4D42494E494E472050414C4154414C495A454420484F4F4B2042454C4F5720),
  (0x322, 0x434F4D42494E494E4720524554524F464C455820484F4F4B2042454C4F5720),
  (0x323, 0x434F4D42494E494E4720444F542042454C4F5720),
  (0x324, 0x434F4D42494E494E47204449414552455349532042454C4F5720),
  (0x325, 0x434F4D42494E494E472052494E472042454C4F5720),
  (0x326, 0x434F4D42494E494E4720434F4D4D412042454C4F5720),
  (0x327, 0x434F4D42494E494E4720434544494C4C4120),
  (0x328, 0x434F4D42494E494E47204F474F4E454B20),
  (0x329, 0x434F4D42494E494E4720564552544943414C204C494E452042454C4F5720),
  (0x32A, 0x434F4D42494E494E47204252494447452042454C4F5720),
  (0x32B, 0x434F4D42494E494E4720494E56455254454420444F55424C4520415243482042454C4F5720),
  (0x32C, 0x434F4D42494E494E47204341524F4E2042454C4F5720),
  (0x32D, 0x434F4D42494E494E472043495243554D464C455820414343454E542042454C4F5720),
  (0x32E, 0x434F4D42494E494E472042524556452042454C4F5720),
  (0x32F, 0x434F4D42494E494E4720494E5645525445442042524556452042454C4F5720),
  (0x330, 0x434F4D42494E494E472054494C44452042454C4F5720),
  (0x331, 0x434F4D42494E494E47204D4143524F4E2042454C4F5720),
  (0x332, 0x434F4D42494E494E47204C4F57204C494E4520),
  (0x333, 0x434F4D42494E494E4720444F55424C45204C4F57204C494E4520),
  (0x334, 0x434F4D42494E494E472054494C4445204F5645524C415920),
  (0x335, 0x434F4D42494E494E472053484F5254205354524F4B45204F5645524C415920),
  (0x336, 0x434F4D42494E494E47204C4F4E47205354524F4B45204F5645524C415920),
  (0x337, 0x434F4D42494E494E472053484F525420534F4C49445553204F5645524C415920),
  (0x338, 0x434F4D42494E494E47204C4F4E4720534F4C49445553204F5645524C415920),
  (0x339, 0x434F4D42494E494E472052494748542048414C462052494E472042454C4F5720),
  (0x33A, 0x434F4D42494E494E4720494E564552544544204252494447452042454C4F5720),
  (0x33B, 0x434F4D42494E494E47205351554152452042454C4F5720),
  (0x33C, 0x434F4D42494E494E472053454147554C4C2042454C4F5720),
  (0x33D, 0x434F4D42494E494E4720582041424F564520),
  (0x33E, 0x434F4D42494E494E4720564552544943414C2054494C444520),
  (0x33F, 0x434F4D42494E494E4720444F55424C45204F5645524C494E4520),
  (0x340, 0x434F4D42494E494E4720475241564520544F4E45204D41524B20)]
def names_12 : List (Nat × Nat) := [
  (0x341, 0x434F4D42494E494E4720414355544520544F4E45204D41524B20),
  (0x342, 0x434F4D42494E494E4720475245454B205045524953504F4D454E4920),
  (0x343, 0x434F4D42494E494E4720475245454B204B4F524F4E495320),
  (0x344, 0x434F4D42494E494E4720475245454B204449414C5954494B4120544F4E4F5320),
  (0x345, 0x434F4D42494E494E4720475245454B2059504F47454752414D4D454E4920),
  (0x346, 0x434F4D42494E494E47204252494447452041424F564520),
  (0x347, 0x434F4D42494E494E4720455155414C53205349474E2042454C4F5720),
  (0x348, 0x434F4D42494E494E4720444F55424C4520564552544943414C204C494E452042454C4F5720),
  (0x349, 0x434F4D42494E494E47204C45465420414E474C452042454C4F5720),
  (0x34A, 0x434F4D42494E494E47204E4F542054494C44452041424F564520),
  (0x34B, 0x434F4D42494E494E4720484F4D4F5448455449432041424F564520),
  (0x34C, 0x434F4D42494E494E4720414C4D4F535420455155414C20544F2041424F564520),
  (0x34D, 0x434F4D42494E494E47204C454654205249474854204152524F572042454C4F5720),
  (0x34E, 0x434F4D42494E494E472055505741524453204152524F572042454C4F5720),
  (0x34F, 0x434F4D42494E494E47204752415048454D45204A4F494E455220),
  (0x350, 0x434F4D42494E494E47205249474854204152524F57484541442041424F564520),
  (0x351, 0x434F4D42494E494E47204C4546542048414C462052494E472041424F564520),
  (0x352, 0x434F4D42494E494E47204645524D41544120),
  (0x353, 0x434F4D42494E494E4720582042454C4F5720),
  (0x354, 0x434F4D42494E494E47204C454654204152524F57484541442042454C4F5720),
  (0x355, 0x434F4D42494E494E47205249474854204152524F57484541442042454C4F5720),
  (0x356, 0x434F4D42494E494E47205249474854204152524F574845414420414E44205550204152524F57484541442042454C4F5720),
  (0x357, 0x434F4D42494E494E472052494748542048414C462052494E472041424F564520),
  (0x358, 0x434F4D42494E494E4720444F542041424F564520524947485420),
  (0x359, 0x434F4D42494E494E4720415354455249534B2042454C4F5720),
  (0x35A, 0x434F4D42494E494E4720444F55424C452052494E472042454C4F5720),
  (0x35B, 0x434F4D42494E494E47205A49475A41472041424F564520),
  (0x35C, 0x434F4D42494E494E4720444F55424C452042524556452042454C4F5720),
  (0x35D, 0x434F4D42494E494E4720444F55424C4520425245564520),
  (0x35E, 0x434F4D42494E494E4720444F55424C45204D4143524F4E20),
  (0x35F, 0x434F4D42494E494E4720444F55424C45204D4143524F4E2042454C4F5720),
  (0x360, 0x434F4D42494E494E4720444F55424C452054494C444520),
  (0x361, 0x434F4D42494E494E4720444F55424C4520494E56455254454420425245564520),
  (0x362, 0x434F4D42494E494E4720444F55424C452052494748545741524453204152524F572042454C4F5720),
  (0x363, 0x434F4D42494E494E47204C4154494E20534D414C4C204C4554544552204120),
  (0x364, 0x434F4D42494E494E47204C4154494E20534D414C4C204C4554544552204520),
  (0x365, 0x434F4D42494E494E47204C4154494E20534D414C4C204C4554544552204920),
  (0x366, 0x434F4D42494E494E47204C4154494E20534D414C4C204C4554544552204F20),
  (0x367, 0x434F4D42494E494E47204C4154494E20534D414C4C204C4554544552205520),
  (0x368, 0x434F4D42494E494E47204C4154494E20534D414C4C204C4554544552204320),
  (0x369, 0x434F4D42494E494E47204C4154494E20534D414C4C204C4554544552204420),
  (0x36A, 0x434F4D42494E494E47204C4154494E20534D414C4C204C4554544552204820),
  (0x36B, 0x434F4D42494E494E47204C4154494E20534D414C4C204C4554544552204D20),
  (0x36C, 0x434F4D42494E494E47204C4154494E20534D414C4C204C4554544552205220),
  (0x36D, 0x434F4D42494E494E47204C4154494E20534D414C4C204C4554544552205420),
  (0x36E, 0x434F4D42494E494E47204C4154494E20534D414C4C204C4554544552205620),
  (0x36F, 0x434F4D42494E494E47204C4154494E20534D414C4C204C4554544552205820),
  (0x370, 0x475245454B204341504954414C204C4554544552204845544120),
  (0x371, 0x475245454B20534D414C4C204C4554544552204845544120),
  (0x372, 0x475245454B204341504954414C204C455454455220415243484149432053414D504920),
  (0x373, 0x475245454B20534D414C4C204C455454455220415243484149432053414D504920),
  (0x374, 0x475245454B204E554D4552414C205349474E20),
  (0x375, 0x475245454B204C4F574552204E554D4552414C205349474E20),
  (0x376, 0x475245454B204341504954414C204C45545445522050414D5048594C49414E20444947414D4D4120),
  (0x377, 0x475245454B20534D414C4C204C45545445522050414D5048594C49414E20444947414D4D4120),
  (0x37A, 0x475245454B2059504F47454752414D4D454E4920),
  (0x37B, 0x475245454B20534D414C4C205245564552534544204C554E415445205349474D412053594D424F4C20),
  (0x37C, 0x475245454B20534D414C4C20444F54544544204C554E415445205349474D412053594D424F4C20),
  (0x37D, 0x475245454B20534D414C4C20524556455253454420444F54544544204C554E415445205349474D412053594D424F4C20),
  (0x37E, 0x475245454B205155455354494F4E204D41524B20),
  (0x37F, 0x475245454B204341504954414C204C455454455220594F5420),
  (0x384, 0x475245454B20544F4E4F5320),
  (0x385, 0x475245454B204449414C5954494B4120544F4E4F5320),
  (0x386, 0x475245454B204341504954414C204C455454455220414C504841205749544820544F4E4F5320)]
def names_13 : List (Nat × Nat) := [
  (0x387, 0x475245454B20414E4F2054454C45494120),
  (0x388, 0x475245454B204341504954414C204C455454455220455053494C4F4E205749544820544F4E4F5320),
  (0x389, 0x475245454B204341504954414C204C455454455220455441205749544820544F4E4F5320),
  (0x38A, 0x475245454B204341504954414C204C455454455220494F5441205749544820544F4E4F5320),
  (0x38C, 0x475245454B204341504954414C204C4554544552204F4D4943524F4E205749544820544F4E4F5320),
  (0x38E, 0x475245454B204341504954414C204C455454455220555053494C4F4E205749544820544F4E4F5320),
  (0x38F, 0x475245454B204341504954414C204C4554544552204F4D454741205749544820544F4E4F5320),
  (0x390, 0x475245454B20534D414C4C204C455454455220494F54412057495448204449414C5954494B4120414E4420544F4E4F5320),
  (0x391, 0x475245454B204341504954414C204C455454455220414C50484120),
  (0x392, 0x475245454B204341504954414C204C4554544552204245544120),
  (0x393, 0x475245454B204341504954414C204C45545445522047414D4D4120),
  (0x394, 0x475245454B204341504954414C204C45545445522044454C544120),
  (0x395, 0x475245454B204341504954414C204C455454455220455053494C4F4E20),
  (0x396, 0x475245454B204341504954414C204C4554544552205A45544120),
  (0x397, 0x475245454B204341504954414C204C45545445522045544120),
  (0x398, 0x475245454B204341504954414C204C455454455220544845544120),
  (0x399, 0x475245454B204341504954414C204C455454455220494F544120),
  (0x39A, 0x475245454B204341504954414C204C4554544552204B4150504120),
  (0x39B, 0x475245454B204341504954414C204C4554544552204C414D444120),
  (0x39C, 0x475245454B204341504954414C204C4554544552204D5520),
  (0x39D, 0x475245454B204341504954414C204C4554544552204E5520),
  (0x39E, 0x475245454B204341504954414C204C455454455220584920),
  (0x39F, 0x475245454B204341504954414C204C4554544552204F4D4943524F4E20),
  (0x3A0, 0x475245454B204341504954414C204C455454455220504920),
  (0x3A1, 0x475245454B204341504954414C204C45545445522052484F20),
  (0x3A3, 0x475245454B204341504954414C204C4554544552205349474D4120),
  (0x3A4, 0x475245454B204341504954414C204C45545445522054415520),
  (0x3A5, 0x475245454B204341504954414C204C455454455220555053494C4F4E20),
  (0x3A6, 0x475245454B204341504954414C204C45545445522050484920),
  (0x3A7, 0x475245454B204341504954414C204C45545445522043484920),
  (0x3A8, 0x475245454B204341504954414C204C45545445522050534920),
  (0x3A9, 0x475245454B204341504954414C204C4554544552204F4D45474120),
  (0x3AA, 0x475245454B204341504954414C204C455454455220494F54412057495448204449414C5954494B4120),
  (0x3AB, 0x475245454B204341504954414C204C455454455220555053494C4F4E2057495448204449414C5954494B4120),
  (0x3AC, 0x475245454B20534D414C4C204C455454455220414C504841205749544820544F4E4F5320),
  (0x3AD, 0x475245454B20534D414C4C204C455454455220455053494C4F4E205749544820544F4E4F5320),
  (0x3AE, 0x475245454B20534D414C4C204C455454455220455441205749544820544F4E4F5320),
  (0x3AF, 0x475245454B20534D414C4C204C455454455220494F5441205749544820544F4E4F5320),
  (0x3B0, 0x475245454B20534D414C4C204C455454455220555053494C4F4E2057495448204449414C5954494B4120414E4420544F4E4F5320),
  (0x3B1, 0x475245454B20534D414C4C204C455454455220414C50484120),
  (0x3B2, 0x475245454B20534D414C4C204C4554544552204245544120),
  (0x3B3, 0x475245454B20534D414C4C204C45545445522047414D4D4120),
  (0x3B4, 0x475245454B20534D414C4C204C45545445522044454C544120),
  (0x3B5, 0x475245454B20534D414C4C204C455454455220455053494C4F4E20),
  (0x3B6, 0x475245454B20534D414C4C204C4554544552205A45544120),
  (0x3B7, 0x475245454B20534D414C4C204C45545445522045544120),
  (0x3B8, 0x475245454B20534D414C4C204C455454455220544845544120),
  (0x3B9, 0x475245454B20534D414C4C204C455454455220494F544120),
  (0x3BA, 0x475245454B20534D414C4C204C4554544552204B4150504120),
  (0x3BB, 0x475245454B20534D414C4C204C4554544552204C414D444120),
  (0x3BC, 0x475245454B20534D414C4C204C4554544552204D5520),
  (0x3BD, 0x475245454B20534D414C4C204C4554544552204E5520),
  (0x3BE, 0x475245454B20534D414C4C204C455454455220584920),
  (0x3BF, 0x475245454B20534D414C4C204C4554544552204F4D4943524F4E20),
  (0x3C0, 0x475245454B20534D414C4C204C455454455220504920),
  (0x3C1, 0x475245454B20534D414C4C204C45545445522052484F20),
  (0x3C2, 0x475245454B20534D414C4C204C45545445522046494E414C205349474D4120),
  (0x3C3, 0x475245454B20534D414C4C204C4554544552205349474D4120),
  (0x3C4, 0x475245454B20534D414C4C204C45545445522054415520),
  (0x3C5, 0x475245454B20534D414C4C204C455454455220555053494C4F4E20),
  (0x3C6, 0x475245454B20534D414C4C204C45545445522050484920),
  (0x3C7, 0x475245454B20534D414C4C204C45545445522043484920),
  (0x3C8, 0x475245454B20534D414C4C204C45545445522050534920),
  (0x3C9, 0x475245454B20534D414C4C204C4554544552204F4D45474120)]
def names_14 : List (Nat × Nat) := [
  (0x3CA, 0x475245454B20534D414C4C204C455454455220494F54412057495448204449414C5954494B4120),
  (0x3CB, 0x475245454B20534D414C4C204C455454455220555053494C4F4E2057495448204449414C5954494B4120),
  (0x3CC, 0x475245454B20534D414C4C204C4554544552204F4D4943524F4E205749544820544F4E4F5320),
  (0x3CD, 0x475245454B20534D414C4C204C455454455220555053494C4F4E205749544820544F4E4F5320),
  (0x3CE, 0x475245454B20534D414C4C204C4554544552204F4D454741205749544820544F4E4F5320),
  (0x3CF, 0x475245454B204341504954414C204B41492053594D424F4C20),
  (0x3D0, 0x475245454B20424554412053594D424F4C20),
  (0x3D1, 0x475245454B2054484554412053594D424F4C20),
  (0x3D2, 0x475245454B20555053494C4F4E205749544820484F4F4B2053594D424F4C20),
  (0x3D3, 0x475245454B20555053494C4F4E205749544820414355544520414E4420484F4F4B2053594D424F4C20),
  (0x3D4, 0x475245454B20555053494C4F4E20574954482044494145524553495320414E4420484F4F4B2053594D424F4C20),
  (0x3D5, 0x475245454B205048492053594D424F4C20),
  (0x3D6, 0x475245454B2050492053594D424F4C20),
  (0x3D7, 0x475245454B204B41492053594D424F4C20),
  (0x3D8, 0x475245454B204C45545445522041524348414943204B4F50504120),
  (0x3D9, 0x475245454B20534D414C4C204C45545445522041524348414943204B4F50504120),
  (0x3DA, 0x475245454B204C455454455220535449474D4120),
  (0x3DB, 0x475245454B20534D414C4C204C455454455220535449474D4120),
  (0x3DC, 0x475245454B204C455454455220444947414D4D4120),
  (0x3DD, 0x475245454B20534D414C4C204C455454455220444947414D4D4120),
  (0x3DE, 0x475245454B204C4554544552204B4F50504120),
  (0x3DF, 0x475245454B20534D414C4C204C4554544552204B4F50504120),
  (0x3E0, 0x475245454B204C45545445522053414D504920),
  (0x3E1, 0x475245454B20534D414C4C204C45545445522053414D504920),
  (0x3E2, 0x434F50544943204341504954414C204C4554544552205348454920),
  (0x3E3, 0x434F5054494320534D414C4C204C4554544552205348454920),
  (0x3E4, 0x434F50544943204341504954414C204C45545445522046454920),
  (0x3E5, 0x434F5054494320534D414C4C204C45545445522046454920),
  (0x3E6, 0x434F50544943204341504954414C204C4554544552204B48454920),
  (0x3E7, 0x434F5054494320534D414C4C204C4554544552204B48454920),
  (0x3E8, 0x434F50544943204341504954414C204C455454455220484F524920),
  (0x3E9, 0x434F5054494320534D414C4C204C455454455220484F524920),
  (0x3EA, 0x434F50544943204341504954414C204C45545445522047414E47494120),
  (0x3EB, 0x434F5054494320534D414C4C204C45545445522047414E47494120),
  (0x3EC, 0x434F50544943204341504954414C204C4554544552205348494D4120),
  (0x3ED, 0x434F5054494320534D414C4C204C4554544552205348494D4120),
  (0x3EE, 0x434F50544943204341504954414C204C45545445522044454920),
  (0x3EF, 0x434F5054494320534D414C4C204C45545445522044454920),
  (0x3F0, 0x475245454B204B415050412053594D424F4C20),
  (0x3F1, 0x475245454B2052484F2053594D424F4C20),
  (0x3F2, 0x475245454B204C554E415445205349474D412053594D424F4C20),
  (0x3F3, 0x475245454B204C455454455220594F5420),
  (0x3F4, 0x475245454B204341504954414C2054484554412053594D424F4C20),
  (0x3F5, 0x475245454B204C554E41544520455053494C4F4E2053594D424F4C20),
  (0x3F6, 0x475245454B205245564552534544204C554E41544520455053494C4F4E2053594D424F4C20),
  (0x3F7, 0x475245454B204341504954414C204C45545445522053484F20),
  (0x3F8, 0x475245454B20534D414C4C204C45545445522053484F20),
  (0x3F9, 0x475245454B204341504954414C204C554E415445205349474D412053594D424F4C20),
  (0x3FA, 0x475245454B204341504954414C204C45545445522053414E20),
  (0x3FB, 0x475245454B20534D414C4C204C45545445522053414E20),
  (0x3FC, 0x475245454B2052484F2057495448205354524F4B452053594D424F4C20),
  (0x3FD, 0x475245454B204341504954414C205245564552534544204C554E415445205349474D412053594D424F4C20),
  (0x3FE, 0x475245454B204341504954414C20444F54544544204C554E415445205349474D412053594D424F4C20),
  (0x3FF, 0x475245454B204341504954414C20524556455253454420444F54544544204C554E415445205349474D412053594D424F4C20),
  (0x400, 0x435952494C4C4943204341504954414C204C4554544552204945205749544820475241564520),
  (0x401, 0x435952494C4C4943204341504954414C204C455454455220494F20),
  (0x402, 0x435952494C4C4943204341504954414C204C455454455220444A4520),
  (0x403, 0x435952494C4C4943204341504954414C204C455454455220474A4520),
  (0x404, 0x435952494C4C4943204341504954414C204C455454455220554B5241494E49414E20494520),
  (0x405, 0x435952494C4C4943204341504954414C204C455454455220445A4520),
  (0x406, 0x435952494C4C4943204341504954414C204C4554544552204259454C4F5255535349414E2D554B5241494E49414E204920),
  (0x407, 0x435952494C4C4943204341504954414C204C455454455220594920),
  (0x408, 0x435952494C4C4943204341504954414C204C4554544552204A4520),
  (0x409, 0x435952494C4C4943204341504954414C204C4554544552204C4A4520)]
def names_15 : List (Nat × Nat) := [
  (0x40A, 0x435952494C4C4943204341504954414C204C4554544552204E4A4520),
  (0x40B, 0x435952494C4C4943204341504954414C204C4554544552205453484520),
  (0x40C, 0x435952494C4C4943204341504954414C204C4554544552204B4A4520),
  (0x40D, 0x435952494C4C4943204341504954414C204C45545445522049205749544820475241564520),
  (0x40E, 0x435952494C4C4943204341504954414C204C45545445522053484F5254205520),
  (0x40F, 0x435952494C4C4943204341504954414C204C455454455220445A484520),
  (0x410, 0x435952494C4C4943204341504954414C204C4554544552204120),
  (0x411, 0x435952494C4C4943204341504954414C204C455454455220424520),
  (0x412, 0x435952494C4C4943204341504954414C204C455454455220564520),
  (0x413, 0x435952494C4C4943204341504954414C204C45545445522047484520),
  (0x414, 0x435952494C4C4943204341504954414C204C455454455220444520),
  (0x415, 0x435952494C4C4943204341504954414C204C455454455220494520),
  (0x416, 0x435952494C4C4943204341504954414C204C4554544552205A484520),
  (0x417, 0x435952494C4C4943204341504954414C204C4554544552205A4520),
  (0x418, 0x435952494C4C4943204341504954414C204C4554544552204920),
  (0x419, 0x435952494C4C4943204341504954414C204C45545445522053484F5254204920),
  (0x41A, 0x435952494C4C4943204341504954414C204C4554544552204B4120),
  (0x41B, 0x435952494C4C4943204341504954414C204C455454455220454C20),
  (0x41C, 0x435952494C4C4943204341504954414C204C455454455220454D20),
  (0x41D, 0x435952494C4C4943204341504954414C204C455454455220454E20),
  (0x41E, 0x435952494C4C4943204341504954414C204C4554544552204F20),
  (0x41F, 0x435952494C4C4943204341504954414C204C455454455220504520),
  (0x420, 0x435952494C4C4943204341504954414C204C455454455220455220),
  (0x421, 0x435952494C4C4943204341504954414C204C455454455220455320),
  (0x422, 0x435952494C4C4943204341504954414C204C455454455220544520),
  (0x423, 0x435952494C4C4943204341504954414C204C4554544552205520),
  (0x424, 0x435952494C4C4943204341504954414C204C455454455220454620),
  (0x425, 0x435952494C4C4943204341504954414C204C455454455220484120),
  (0x426, 0x435952494C4C4943204341504954414C204C45545445522054534520),
  (0x427, 0x435952494C4C4943204341504954414C204C45545445522043484520),
  (0x428, 0x435952494C4C4943204341504954414C204C45545445522053484120),
  (0x429, 0x435952494C4C4943204341504954414C204C455454455220534843484120),
  (0x42A, 0x435952494C4C4943204341504954414C204C45545445522048415244205349474E20),
  (0x42B, 0x435952494C4C4943204341504954414C204C4554544552205945525520),
  (0x42C, 0x435952494C4C4943204341504954414C204C455454455220534F4654205349474E20),
  (0x42D, 0x435952494C4C4943204341504954414C204C4554544552204520),
  (0x42E, 0x435952494C4C4943204341504954414C204C455454455220595520),
  (0x42F, 0x435952494C4C4943204341504954414C204C455454455220594120),
  (0x430, 0x435952494C4C494320534D414C4C204C4554544552204120),
  (0x431, 0x435952494C4C494320534D414C4C204C455454455220424520),
  (0x432, 0x435952494C4C494320534D414C4C204C455454455220564520),
  (0x433, 0x435952494C4C494320534D414C4C204C45545445522047484520),
  (0x434, 0x435952494C4C494320534D414C4C204C455454455220444520),
  (0x435, 0x435952494C4C494320534D414C4C204C455454455220494520),
  (0x436, 0x435952494C4C494320534D414C4C204C4554544552205A484520),
  (0x437, 0x435952494C4C494320534D414C4C204C4554544552205A4520),
  (0x438, 0x435952494C4C494320534D414C4C204C4554544552204920),
  (0x439, 0x435952494C4C494320534D414C4C204C45545445522053484F5254204920),
  (0x43A, 0x435952494C4C494320534D414C4C204C4554544552204B4120),
  (0x43B, 0x435952494C4C494320534D414C4C204C455454455220454C20),
  (0x43C, 0x435952494C4C494320534D414C4C204C455454455220454D20),
  (0x43D, 0x435952494C4C494320534D414C4C204C455454455220454E20),
  (0x43E, 0x435952494C4C494320534D414C4C204C4554544552204F20),
  (0x43F, 0x435952494C4C494320534D414C4C204C455454455220504520),
  (0x440, 0x435952494C4C494320534D414C4C204C455454455220455220),
  (0x441, 0x435952494C4C494320534D414C4C204C455454455220455320),
  (0x442, 0x435952494C4C494320534D414C4C204C455454455220544520),
  (0x443, 0x435952494C4C494320534D414C4C204C4554544552205520),
  (0x444, 0x435952494C4C494320534D414C4C204C455454455220454620),
  (0x445, 0x435952494C4C494320534D414C4C204C455454455220484120),
  (0x446, 0x435952494C4C494320534D414C4C204C45545445522054534520),
  (0x447, 0x435952494C4C494320534D414C4C204C45545445522043484520),
  (0x448, 0x435952494C4C494320534D414C4C204C45545445522053484120),
  (0x449, 0x435952494C4C494320534D414C4C204C455454455220534843484120)]
def names_16 : List (Nat × Nat) := [
  (0x44A, 0x435952494C4C494320534D414C4C204C45545445522048415244205349474E20),
  (0x44B, 0x435952494C4C494320534D414C4C204C4554544552205945525520),
  (0x44C, 0x435952494C4C494320534D414C4C204C455454455220534F4654205349474E20),
  (0x44D, 0x435952494C4C494320534D414C4C204C4554544552204520),
  (0x44E, 0x435952494C4C494320534D414C4C204C455454455220595520),
  (0x44F, 0x435952494C4C494320534D414C4C204C455454455220594120),
  (0x450, 0x435952494C4C494320534D414C4C204C4554544552204945205749544820475241564520),
  (0x451, 0x435952494C4C494320534D414C4C204C455454455220494F20),
  (0x452, 0x435952494C4C494320534D414C4C204C455454455220444A4520),
  (0x453, 0x435952494C4C494320534D414C4C204C455454455220474A4520),
  (0x454, 0x435952494C4C494320534D414C4C204C455454455220554B5241494E49414E20494520),
  (0x455, 0x435952494C4C494320534D414C4C204C455454455220445A4520),
  (0x456, 0x435952494C4C494320534D414C4C204C4554544552204259454C4F5255535349414E2D554B5241494E49414E204920),
  (0x457, 0x435952494C4C494320534D414C4C204C455454455220594920),
  (0x458, 0x435952494C4C494320534D414C4C204C4554544552204A4520),
  (0x459, 0x435952494C4C494320534D414C4C204C4554544552204C4A4520),
  (0x45A, 0x435952494C4C494320534D414C4C204C4554544552204E4A4520),
  (0x45B, 0x435952494C4C494320534D414C4C204C4554544552205453484520),
  (0x45C, 0x435952494C4C494320534D414C4C204C4554544552204B4A4520),
  (0x45D, 0x435952494C4C494320534D414C4C204C45545445522049205749544820475241564520),
  (0x45E, 0x435952494C4C494320534D414C4C204C45545445522053484F5254205520),
  (0x45F, 0x435952494C4C494320534D414C4C204C455454455220445A484520),
  (0x460, 0x435952494C4C4943204341504954414C204C4554544552204F4D45474120),
  (0x461, 0x435952494C4C494320534D414C4C204C4554544552204F4D45474120),
  (0x462, 0x435952494C4C4943204341504954414C204C45545445522059415420),
  (0x463, 0x435952494C4C494320534D414C4C204C45545445522059415420),
  (0x464, 0x435952494C4C4943204341504954414C204C455454455220494F544946494544204520),
  (0x465, 0x435952494C4C494320534D414C4C204C455454455220494F544946494544204520),
  (0x466, 0x435952494C4C4943204341504954414C204C4554544552204C4954544C452059555320),
  (0x467, 0x435952494C4C494320534D414C4C204C4554544552204C4954544C452059555320),
  (0x468, 0x435952494C4C4943204341504954414C204C455454455220494F544946494544204C4954544C452059555320),
  (0x469, 0x435952494C4C494320534D414C4C204C455454455220494F544946494544204C4954544C452059555320),
  (0x46A, 0x435952494C4C4943204341504954414C204C4554544552204249472059555320),
  (0x46B, 0x435952494C4C494320534D414C4C204C4554544552204249472059555320),
  (0x46C, 0x435952494C4C4943204341504954414C204C455454455220494F544946494544204249472059555320),
  (0x46D, 0x435952494C4C494320534D414C4C204C455454455220494F544946494544204249472059555320),
  (0x46E, 0x435952494C4C4943204341504954414C204C4554544552204B534920),
  (0x46F, 0x435952494C4C494320534D414C4C204C4554544552204B534920),
  (0x470, 0x435952494C4C4943204341504954414C204C45545445522050534920),
  (0x471, 0x435952494C4C494320534D414C4C204C45545445522050534920),
  (0x472, 0x435952494C4C4943204341504954414C204C4554544552204649544120),
  (0x473, 0x435952494C4C494320534D414C4C204C4554544552204649544120),
  (0x474, 0x435952494C4C4943204341504954414C204C455454455220495A484954534120),
  (0x475, 0x435952494C4C494320534D414C4C204C455454455220495A484954534120),
  (0x476, 0x435952494C4C4943204341504954414C204C455454455220495A4849545341205749544820444F55424C4520475241564520414343454E5420),
  (0x477, 0x435952494C4C494320534D414C4C204C455454455220495A4849545341205749544820444F55424C4520475241564520414343454E5420),
  (0x478, 0x435952494C4C4943204341504954414C204C455454455220554B20),
  (0x479, 0x435952494C4C494320534D414C4C204C455454455220554B20),
  (0x47A, 0x435952494C4C4943204341504954414C204C455454455220524F554E44204F4D45474120),
  (0x47B, 0x435952494C4C494320534D414C4C204C455454455220524F554E44204F4D45474120),
  (0x47C, 0x435952494C4C4943204341504954414C204C4554544552204F4D4547412057495448205449544C4F20),
  (0x47D, 0x435952494C4C494320534D414C4C204C4554544552204F4D4547412057495448205449544C4F20),
  (0x47E, 0x435952494C4C4943204341504954414C204C4554544552204F5420),
  (0x47F, 0x435952494C4C494320534D414C4C204C4554544552204F5420),
  (0x480, 0x435952494C4C4943204341504954414C204C4554544552204B4F50504120),
  (0x481, 0x435952494C4C494320534D414C4C204C4554544552204B4F50504120),
  (0x482, 0x435952494C4C49432054484F5553414E4453205349474E20),
  (0x483, 0x434F4D42494E494E4720435952494C4C4943205449544C4F20),
  (0x484, 0x434F4D42494E494E4720435952494C4C49432050414C4154414C495A4154494F4E20),
  (0x485, 0x434F4D42494E494E4720435952494C4C494320444153494120504E45554D41544120),
  (0x486, 0x434F4D42494E494E4720435952494C4C4943205053494C4920504E45554D41544120),
  (0x487, 0x434F4D42494E494E4720435952494C4C494320504F4B525954494520),
  (0x488, 0x434F4D42494E494E4720435952494C4C49432048554E445245442054484F5553414E4453205349474E20),
  (0x489, 0x434F4D42494E494E4720435952494C4C4943204D494C4C494F4E53205349474E20)]
def names_17 : List (Nat × Nat) := [
  (0x48A, 0x435952494C4C4943204341504954414C204C45545445522053484F525420492057495448205441494C20),
  (0x48B, 0x435952494C4C494320534D414C4C204C45545445522053484F525420492057495448205441494C20),
  (0x48C, 0x435952494C4C4943204341504954414C204C45545445522053454D49534F4654205349474E20),
  (0x48D, 0x435952494C4C494320534D414C4C204C45545445522053454D49534F4654205349474E20),
  (0x48E, 0x435952494C4C4943204341504954414C204C45545445522045522057495448205449434B20),
  (0x48F, 0x435952494C4C494320534D414C4C204C45545445522045522057495448205449434B20),
  (0x490, 0x435952494C4C4943204341504954414C204C45545445522047484520574954482055505455524E20),
  (0x491, 0x435952494C4C494320534D414C4C204C45545445522047484520574954482055505455524E20),
  (0x492, 0x435952494C4C4943204341504954414C204C4554544552204748452057495448205354524F4B4520),
  (0x493, 0x435952494C4C494320534D414C4C204C4554544552204748452057495448205354524F4B4520),
  (0x494, 0x435952494C4C4943204341504954414C204C4554544552204748452057495448204D4944444C4520484F4F4B20),
  (0x495, 0x435952494C4C494320534D414C4C204C4554544552204748452057495448204D4944444C4520484F4F4B20),
  (0x496, 0x435952494C4C4943204341504954414C204C4554544552205A484520574954482044455343454E44455220),
  (0x497, 0x435952494C4C494320534D414C4C204C4554544552205A484520574954482044455343454E44455220),
  (0x498, 0x435952494C4C4943204341504954414C204C4554544552205A4520574954482044455343454E44455220),
  (0x499, 0x435952494C4C494320534D414C4C204C4554544552205A4520574954482044455343454E44455220),
  (0x49A, 0x435952494C4C4943204341504954414C204C4554544552204B4120574954482044455343454E44455220),
  (0x49B, 0x435952494C4C494320534D414C4C204C4554544552204B4120574954482044455343454E44455220),
  (0x49C, 0x435952494C4C4943204341504954414C204C4554544552204B41205749544820564552544943414C205354524F4B4520),
  (0x49D, 0x435952494C4C494320534D414C4C204C4554544552204B41205749544820564552544943414C205354524F4B4520),
  (0x49E, 0x435952494C4C4943204341504954414C204C4554544552204B412057495448205354524F4B4520),
  (0x49F, 0x435952494C4C494320534D414C4C204C4554544552204B412057495448205354524F4B4520),
  (0x4A0, 0x435952494C4C4943204341504954414C204C455454455220424153484B4952204B4120),
  (0x4A1, 0x435952494C4C494320534D414C4C204C455454455220424153484B4952204B4120),
  (0x4A2, 0x435952494C4C4943204341504954414C204C455454455220454E20574954482044455343454E44455220),
  (0x4A3, 0x435952494C4C494320534D414C4C204C455454455220454E20574954482044455343454E44455220),
  (0x4A4, 0x435952494C4C4943204341504954414C204C4947415455524520454E2047484520),
  (0x4A5, 0x435952494C4C494320534D414C4C204C4947415455524520454E2047484520),
  (0x4A6, 0x435952494C4C4943204341504954414C204C45545445522050452057495448204D4944444C4520484F4F4B20),
  (0x4A7, 0x435952494C4C494320534D414C4C204C45545445522050452057495448204D4944444C4520484F4F4B20),
  (0x4A8, 0x435952494C4C4943204341504954414C204C45545445522041424B48415349414E20484120),
  (0x4A9, 0x435952494C4C494320534D414C4C204C45545445522041424B48415349414E20484120),
  (0x4AA, 0x435952494C4C4943204341504954414C204C455454455220455320574954482044455343454E44455220),
  (0x4AB, 0x435952494C4C494320534D414C4C204C455454455220455320574954482044455343454E44455220),
  (0x4AC, 0x435952494C4C4943204341504954414C204C455454455220544520574954482044455343454E44455220),
  (0x4AD, 0x435952494C4C494320534D414C4C204C455454455220544520574954482044455343454E44455220),
  (0x4AE, 0x435952494C4C4943204341504954414C204C4554544552205354524149474854205520),
  (0x4AF, 0x435952494C4C494320534D414C4C204C4554544552205354524149474854205520),
  (0x4B0, 0x435952494C4C4943204341504954414C204C455454455220535452414947485420552057495448205354524F4B4520),
  (0x4B1, 0x435952494C4C494320534D414C4C204C455454455220535452414947485420552057495448205354524F4B4520),
  (0x4B2, 0x435952494C4C4943204341504954414C204C455454455220484120574954482044455343454E44455220),
  (0x4B3, 0x435952494C4C494320534D414C4C204C455454455220484120574954482044455343454E44455220),
  (0x4B4, 0x435952494C4C4943204341504954414C204C494741545552452054452054534520),
  (0x4B5, 0x435952494C4C494320534D414C4C204C494741545552452054452054534520),
  (0x4B6, 0x435952494C4C4943204341504954414C204C45545445522043484520574954482044455343454E44455220),
  (0x4B7, 0x435952494C4C494320534D414C4C204C45545445522043484520574954482044455343454E44455220),
  (0x4B8, 0x435952494C4C4943204341504954414C204C455454455220434845205749544820564552544943414C205354524F4B4520),
  (0x4B9, 0x435952494C4C494320534D414C4C204C455454455220434845205749544820564552544943414C205354524F4B4520),
  (0x4BA, 0x435952494C4C4943204341504954414C204C4554544552205348484120),
  (0x4BB, 0x435952494C4C494320534D414C4C204C4554544552205348484120),
  (0x4BC, 0x435952494C4C4943204341504954414C204C45545445522041424B48415349414E2043484520),
  (0x4BD, 0x435952494C4C494320534D414C4C204C45545445522041424B48415349414E2043484520),
  (0x4BE, 0x435952494C4C4943204341504954414C204C45545445522041424B48415349414E2043484520574954482044455343454E44455220),
  (0x4BF, 0x435952494C4C494320534D414C4C204C45545445522041424B48415349414E2043484520574954482044455343454E44455220),
  (0x4C0, 0x435952494C4C4943204C45545445522050414C4F43484B4120),
  (0x4C1, 0x435952494C4C4943204341504954414C204C4554544552205A4845205749544820425245564520),
  (0x4C2, 0x435952494C4C494320534D414C4C204C4554544552205A4845205749544820425245564520),
  (0x4C3, 0x435952494C4C4943204341504954414C204C4554544552204B41205749544820484F4F4B20),
  (0x4C4, 0x435952494C4C494320534D414C4C204C4554544552204B41205749544820484F4F4B20),
  (0x4C5, 0x435952494C4C4943204341504954414C204C455454455220454C2057495448205441494C20),
  (0x4C6, 0x435952494C4C494320534D414C4C204C455454455220454C2057495448205441494C20),
  (0x4C7, 0x435952494C4C4943204341504954414C204C455454455220454E205749544820484F4F4B20),
  (0x4C8, 0x435952494C4C494320534D414C4C204C455454455220454E205749544820484F4F4B20),
  (0x4C9, 0x435952494C4C4943204341504954414C204C455454455220454E2057495448205441494C20)]
def names_18 : List (Nat × Nat) := [
  (0x4CA, 0x435952494C4C494320534D414C4C204C455454455220454E2057495448205441494C20),
  (0x4CB, 0x435952494C4C4943204341504954414C204C4554544552204B48414B41535349414E2043484520),
  (0x4CC, 0x435952494C4C494320534D414C4C204C4554544552204B48414B41535349414E2043484520),
  (0x4CD, 0x435952494C4C4943204341504954414C204C455454455220454D2057495448205441494C20),
  (0x4CE, 0x435952494C4C494320534D414C4C204C455454455220454D2057495448205441494C20),
  (0x4CF, 0x435952494C4C494320534D414C4C204C45545445522050414C4F43484B4120),
  (0x4D0, 0x435952494C4C4943204341504954414C204C45545445522041205749544820425245564520),
  (0x4D1, 0x435952494C4C494320534D414C4C204C45545445522041205749544820425245564520),
  (0x4D2, 0x435952494C4C4943204341504954414C204C4554544552204120574954482044494145524553495320),
  (0x4D3, 0x435952494C4C494320534D414C4C204C4554544552204120574954482044494145524553495320),
  (0x4D4, 0x435952494C4C4943204341504954414C204C49474154555245204120494520),
  (0x4D5, 0x435952494C4C494320534D414C4C204C49474154555245204120494520),
  (0x4D6, 0x435952494C4C4943204341504954414C204C4554544552204945205749544820425245564520),
  (0x4D7, 0x435952494C4C494320534D414C4C204C4554544552204945205749544820425245564520),
  (0x4D8, 0x435952494C4C4943204341504954414C204C455454455220534348574120),
  (0x4D9, 0x435952494C4C494320534D414C4C204C455454455220534348574120),
  (0x4DA, 0x435952494C4C4943204341504954414C204C455454455220534348574120574954482044494145524553495320),
  (0x4DB, 0x435952494C4C494320534D414C4C204C455454455220534348574120574954482044494145524553495320),
  (0x4DC, 0x435952494C4C4943204341504954414C204C4554544552205A484520574954482044494145524553495320),
  (0x4DD, 0x435952494C4C494320534D414C4C204C4554544552205A484520574954482044494145524553495320),
  (0x4DE, 0x435952494C4C4943204341504954414C204C4554544552205A4520574954482044494145524553495320),
  (0x4DF, 0x435952494C4C494320534D414C4C204C4554544552205A4520574954482044494145524553495320),
  (0x4E0, 0x435952494C4C4943204341504954414C204C45545445522041424B48415349414E20445A4520),
  (0x4E1, 0x435952494C4C494320534D414C4C204C45545445522041424B48415349414E20445A4520),
  (0x4E2, 0x435952494C4C4943204341504954414C204C455454455220492057495448204D4143524F4E20),
  (0x4E3, 0x435952494C4C494320534D414C4C204C455454455220492057495448204D4143524F4E20),
  (0x4E4, 0x435952494C4C4943204341504954414C204C4554544552204920574954482044494145524553495320),
  (0x4E5, 0x435952494C4C494320534D414C4C204C4554544552204920574954482044494145524553495320),
  (0x4E6, 0x435952494C4C4943204341504954414C204C4554544552204F20574954482044494145524553495320),
  (0x4E7, 0x435952494C4C494320534D414C4C204C4554544552204F20574954482044494145524553495320),
  (0x4E8, 0x435952494C4C4943204341504954414C204C455454455220424152524544204F20),
  (0x4E9, 0x435952494C4C494320534D414C4C204C455454455220424152524544204F20),
  (0x4EA, 0x435952494C4C4943204341504954414C204C455454455220424152524544204F20574954482044494145524553495320),
  (0x4EB, 0x435952494C4C494320534D414C4C204C455454455220424152524544204F20574954482044494145524553495320),
  (0x4EC, 0x435952494C4C4943204341504954414C204C4554544552204520574954482044494145524553495320),
  (0x4ED, 0x435952494C4C494320534D414C4C204C4554544552204520574954482044494145524553495320),
  (0x4EE, 0x435952494C4C4943204341504954414C204C455454455220552057495448204D4143524F4E20),
  (0x4EF, 0x435952494C4C494320534D414C4C204C455454455220552057495448204D4143524F4E20),
  (0x4F0, 0x435952494C4C4943204341504954414C204C4554544552205520574954482044494145524553495320),
  (0x4F1, 0x435952494C4C494320534D414C4C204C4554544552205520574954482044494145524553495320),
  (0x4F2, 0x435952494C4C4943204341504954414C204C45545445522055205749544820444F55424C4520414355544520),
  (0x4F3, 0x435952494C4C494320534D414C4C204C45545445522055205749544820444F55424C4520414355544520),
  (0x4F4, 0x435952494C4C4943204341504954414C204C45545445522043484520574954482044494145524553495320),
  (0x4F5, 0x435952494C4C494320534D414C4C204C45545445522043484520574954482044494145524553495320),
  (0x4F6, 0x435952494C4C4943204341504954414C204C45545445522047484520574954482044455343454E44455220),
  (0x4F7, 0x435952494C4C494320534D414C4C204C45545445522047484520574954482044455343454E44455220),
  (0x4F8, 0x435952494C4C4943204341504954414C204C4554544552205945525520574954482044494145524553495320),
  (0x4F9, 0x435952494C4C494320534D414C4C204C4554544552205945525520574954482044494145524553495320),
  (0x4FA, 0x435952494C4C4943204341504954414C204C4554544552204748452057495448205354524F4B4520414E4420484F4F4B20),
  (0x4FB, 0x435952494C4C494320534D414C4C204C4554544552204748452057495448205354524F4B4520414E4420484F4F4B20),
  (0x4FC, 0x435952494C4C4943204341504954414C204C4554544552204841205749544820484F4F4B20),
  (0x4FD, 0x435952494C4C494320534D414C4C204C4554544552204841205749544820484F4F4B20),
  (0x4FE, 0x435952494C4C4943204341504954414C204C45545445522048412057495448205354524F4B4520),
  (0x4FF, 0x435952494C4C494320534D414C4C204C45545445522048412057495448205354524F4B4520),
  (0x500, 0x435952494C4C4943204341504954414C204C4554544552204B4F4D4920444520),
  (0x501, 0x435952494C4C494320534D414C4C204C4554544552204B4F4D4920444520),
  (0x502, 0x435952494C4C4943204341504954414C204C4554544552204B4F4D4920444A4520),
  (0x503, 0x435952494C4C494320534D414C4C204C4554544552204B4F4D4920444A4520),
  (0x504, 0x435952494C4C4943204341504954414C204C4554544552204B4F4D49205A4A4520),
  (0x505, 0x435952494C4C494320534D414C4C204C4554544552204B4F4D49205A4A4520),
  (0x506, 0x435952494C4C4943204341504954414C204C4554544552204B4F4D4920445A4A4520),
  (0x507, 0x435952494C4C494320534D414C4C204C4554544552204B4F4D4920445A4A4520),
  (0x508, 0x435952494C4C4943204341504954414C204C4554544552204B4F4D49204C4A4520),
  (0x509, 0x435952494C4C494320534D414C4C204C4554544552204B4F4D49204C4A4520)]
def names_19 : List (Nat × Nat) := [
  (0x50A, 0x435952494C4C4943204341504954414C204C4554544552204B4F4D49204E4A4520),
  (0x50B, 0x435952494C4C494320534D414C4C204C4554544552204B4F4D49204E4A4520),
  (0x50C, 0x435952494C4C4943204341504954414C204C4554544552204B4F4D4920534A4520),
  (0x50D, 0x435952494C4C494320534D414C4C204C4554544552204B4F4D4920534A4520),
  (0x50E, 0x435952494C4C4943204341504954414C204C4554544552204B4F4D4920544A4520),
  (0x50F, 0x435952494C4C494320534D414C4C204C4554544552204B4F4D4920544A4520),
  (0x510, 0x435952494C4C4943204341504954414C204C4554544552205245564552534544205A4520),
  (0x511, 0x435952494C4C494320534D414C4C204C4554544552205245564552534544205A4520),
  (0x512, 0x435952494C4C4943204341504954414C204C455454455220454C205749544820484F4F4B20),
  (0x513, 0x435952494C4C494320534D414C4C204C455454455220454C205749544820484F4F4B20),
  (0x514, 0x435952494C4C4943204341504954414C204C4554544552204C484120),
  (0x515, 0x435952494C4C494320534D414C4C204C4554544552204C484120),
  (0x516, 0x435952494C4C4943204341504954414C204C45545445522052484120),
  (0x517, 0x435952494C4C494320534D414C4C204C45545445522052484120),
  (0x518, 0x435952494C4C4943204341504954414C204C45545445522059414520),
  (0x519, 0x435952494C4C494320534D414C4C204C45545445522059414520),
  (0x51A, 0x435952494C4C4943204341504954414C204C455454455220514120),
  (0x51B, 0x435952494C4C494320534D414C4C204C455454455220514120),
  (0x51C, 0x435952494C4C4943204341504954414C204C455454455220574520),
  (0x51D, 0x435952494C4C494320534D414C4C204C455454455220574520),
  (0x51E, 0x435952494C4C4943204341504954414C204C455454455220414C455554204B4120),
  (0x51F, 0x435952494C4C494320534D414C4C204C455454455220414C455554204B4120),
  (0x520, 0x435952494C4C4943204341504954414C204C455454455220454C2057495448204D4944444C4520484F4F4B20),
  (0x521, 0x435952494C4C494320534D414C4C204C455454455220454C2057495448204D4944444C4520484F4F4B20),
  (0x522, 0x435952494C4C4943204341504954414C204C455454455220454E2057495448204D4944444C4520484F4F4B20),
  (0x523, 0x435952494C4C494320534D414C4C204C455454455220454E2057495448204D4944444C4520484F4F4B20),
  (0x524, 0x435952494C4C4943204341504954414C204C455454455220504520574954482044455343454E44455220),
  (0x525, 0x435952494C4C494320534D414C4C204C455454455220504520574954482044455343454E44455220),
  (0x526, 0x435952494C4C4943204341504954414C204C4554544552205348484120574954482044455343454E44455220),
  (0x527, 0x435952494C4C494320534D414C4C204C4554544552205348484120574954482044455343454E44455220),
  (0x528, 0x435952494C4C4943204341504954414C204C455454455220454E2057495448204C45465420484F4F4B20),
  (0x529, 0x435952494C4C494320534D414C4C204C455454455220454E2057495448204C45465420484F4F4B20),
  (0x52A, 0x435952494C4C4943204341504954414C204C455454455220445A5A484520),
  (0x52B, 0x435952494C4C494320534D414C4C204C455454455220445A5A484520),
  (0x52C, 0x435952494C4C4943204341504954414C204C4554544552204443484520),
  (0x52D, 0x435952494C4C494320534D414C4C204C4554544552204443484520),
  (0x52E, 0x435952494C4C4943204341504954414C204C455454455220454C20574954482044455343454E44455220),
  (0x52F, 0x435952494C4C494320534D414C4C204C455454455220454C20574954482044455343454E44455220),
  (0x531, 0x41524D454E49414E204341504954414C204C45545445522041594220),
  (0x532, 0x41524D454E49414E204341504954414C204C45545445522042454E20),
  (0x533, 0x41524D454E49414E204341504954414C204C45545445522047494D20),
  (0x534, 0x41524D454E49414E204341504954414C204C455454455220444120),
  (0x535, 0x41524D454E49414E204341504954414C204C45545445522045434820),
  (0x536, 0x41524D454E49414E204341504954414C204C4554544552205A4120),
  (0x537, 0x41524D454E49414E204341504954414C204C455454455220454820),
  (0x538, 0x41524D454E49414E204341504954414C204C455454455220455420),
  (0x539, 0x41524D454E49414E204341504954414C204C455454455220544F20),
  (0x53A, 0x41524D454E49414E204341504954414C204C4554544552205A484520),
  (0x53B, 0x41524D454E49414E204341504954414C204C455454455220494E4920),
  (0x53C, 0x41524D454E49414E204341504954414C204C4554544552204C49574E20),
  (0x53D, 0x41524D454E49414E204341504954414C204C45545445522058454820),
  (0x53E, 0x41524D454E49414E204341504954414C204C455454455220434120),
  (0x53F, 0x41524D454E49414E204341504954414C204C4554544552204B454E20),
  (0x540, 0x41524D454E49414E204341504954414C204C455454455220484F20),
  (0x541, 0x41524D454E49414E204341504954414C204C4554544552204A4120),
  (0x542, 0x41524D454E49414E204341504954414C204C4554544552204748414420),
  (0x543, 0x41524D454E49414E204341504954414C204C4554544552204348454820),
  (0x544, 0x41524D454E49414E204341504954414C204C4554544552204D454E20),
  (0x545, 0x41524D454E49414E204341504954414C204C455454455220594920),
  (0x546, 0x41524D454E49414E204341504954414C204C4554544552204E4F5720),
  (0x547, 0x41524D454E49414E204341504954414C204C45545445522053484120),
  (0x548, 0x41524D454E49414E204341504954414C204C455454455220564F20),
  (0x549, 0x41524D454E49414E204341504954414C204C45545445522043484120),
  (0x54A, 0x41524D454E49414E204341504954414C204C45545445522050454820)]
def names_20 : List (Nat × Nat) := [
  (0x54B, 0x41524D454E49414E204341504954414C204C4554544552204A48454820),
  (0x54C, 0x41524D454E49414E204341504954414C204C455454455220524120),
  (0x54D, 0x41524D454E49414E204341504954414C204C45545445522053454820),
  (0x54E, 0x41524D454E49414E204341504954414C204C45545445522056455720),
  (0x54F, 0x41524D454E49414E204341504954414C204C4554544552205449574E20),
  (0x550, 0x41524D454E49414E204341504954414C204C45545445522052454820),
  (0x551, 0x41524D454E49414E204341504954414C204C455454455220434F20),
  (0x552, 0x41524D454E49414E204341504954414C204C4554544552205949574E20),
  (0x553, 0x41524D454E49414E204341504954414C204C4554544552205049575220),
  (0x554, 0x41524D454E49414E204341504954414C204C4554544552204B454820),
  (0x555, 0x41524D454E49414E204341504954414C204C4554544552204F4820),
  (0x556, 0x41524D454E49414E204341504954414C204C45545445522046454820),
  (0x559, 0x41524D454E49414E204D4F444946494552204C4554544552204C4546542048414C462052494E4720),
  (0x55A, 0x41524D454E49414E2041504F5354524F50484520),
  (0x55B, 0x41524D454E49414E20454D504841534953204D41524B20),
  (0x55C, 0x41524D454E49414E204558434C414D4154494F4E204D41524B20),
  (0x55D, 0x41524D454E49414E20434F4D4D4120),
  (0x55E, 0x41524D454E49414E205155455354494F4E204D41524B20),
  (0x55F, 0x41524D454E49414E20414242524556494154494F4E204D41524B20),
  (0x561, 0x41524D454E49414E20534D414C4C204C45545445522041594220),
  (0x562, 0x41524D454E49414E20534D414C4C204C45545445522042454E20),
  (0x563, 0x41524D454E49414E20534D414C4C204C45545445522047494D20),
  (0x564, 0x41524D454E49414E20534D414C4C204C455454455220444120),
  (0x565, 0x41524D454E49414E20534D414C4C204C45545445522045434820),
  (0x566, 0x41524D454E49414E20534D414C4C204C4554544552205A4120),
  (0x567, 0x41524D454E49414E20534D414C4C204C455454455220454820),
  (0x568, 0x41524D454E49414E20534D414C4C204C455454455220455420),
  (0x569, 0x41524D454E49414E20534D414C4C204C455454455220544F20),
  (0x56A, 0x41524D454E49414E20534D414C4C204C4554544552205A484520),
  (0x56B, 0x41524D454E49414E20534D414C4C204C455454455220494E4920),
  (0x56C, 0x41524D454E49414E20534D414C4C204C4554544552204C49574E20),
  (0x56D, 0x41524D454E49414E20534D414C4C204C45545445522058454820),
  (0x56E, 0x41524D454E49414E20534D414C4C204C455454455220434120),
  (0x56F, 0x41524D454E49414E20534D414C4C204C4554544552204B454E20),
  (0x570, 0x41524D454E49414E20534D414C4C204C455454455220484F20),
  (0x571, 0x41524D454E49414E20534D414C4C204C4554544552204A4120),
  (0x572, 0x41524D454E49414E20534D414C4C204C4554544552204748414420),
  (0x573, 0x41524D454E49414E20534D414C4C204C4554544552204348454820),
  (0x574, 0x41524D454E49414E20534D414C4C204C4554544552204D454E20),
  (0x575, 0x41524D454E49414E20534D414C4C204C455454455220594920),
  (0x576, 0x41524D454E49414E20534D414C4C204C4554544552204E4F5720),
  (0x577, 0x41524D454E49414E20534D414C4C204C45545445522053484120),
  (0x578, 0x41524D454E49414E20534D414C4C204C455454455220564F20),
  (0x579, 0x41524D454E49414E20534D414C4C204C45545445522043484120),
  (0x57A, 0x41524D454E49414E20534D414C4C204C45545445522050454820),
  (0x57B, 0x41524D454E49414E20534D414C4C204C4554544552204A48454820),
  (0x57C, 0x41524D454E49414E20534D414C4C204C455454455220524120),
  (0x57D, 0x41524D454E49414E20534D414C4C204C45545445522053454820),
  (0x57E, 0x41524D454E49414E20534D414C4C204C45545445522056455720),
  (0x57F, 0x41524D454E49414E20534D414C4C204C4554544552205449574E20),
  (0x580, 0x41524D454E49414E20534D414C4C204C45545445522052454820),
  (0x581, 0x41524D454E49414E20534D414C4C204C455454455220434F20),
  (0x582, 0x41524D454E49414E20534D414C4C204C4554544552205949574E20),
  (0x583, 0x41524D454E49414E20534D414C4C204C4554544552205049575220),
  (0x584, 0x41524D454E49414E20534D414C4C204C4554544552204B454820),
  (0x585, 0x41524D454E49414E20534D414C4C204C4554544552204F4820),
  (0x586, 0x41524D454E49414E20534D414C4C204C45545445522046454820),
  (0x587, 0x41524D454E49414E20534D414C4C204C4947415455524520454348205949574E20),
  (0x589, 0x41524D454E49414E2046554C4C2053544F5020),
  (0x58A, 0x41524D454E49414E2048595048454E20),
  (0x58D, 0x52494748542D464143494E472041524D454E49414E20455445524E495459205349474E20),
  (0x58E, 0x4C4546542D464143494E472041524D454E49414E20455445524E495459205349474E20),
  (0x58F, 0x41524D454E49414E204452414D205349474E20),
  (0x591, 0x48454252455720414343454E542045544E4148544120)]
def names_21 : List (Nat × Nat) := [
  (0x592, 0x48454252455720414343454E54205345474F4C20),
  (0x593, 0x48454252455720414343454E54205348414C5348454C455420),
  (0x594, 0x48454252455720414343454E54205A4151454620514154414E20),
  (0x595, 0x48454252455720414343454E54205A41514546204741444F4C20),
  (0x596, 0x48454252455720414343454E542054495045484120),
  (0x597, 0x48454252455720414343454E5420524556494120),
  (0x598, 0x48454252455720414343454E54205A4152514120),
  (0x599, 0x48454252455720414343454E542050415348544120),
  (0x59A, 0x48454252455720414343454E5420594554495620),
  (0x59B, 0x48454252455720414343454E5420544556495220),
  (0x59C, 0x48454252455720414343454E542047455245534820),
  (0x59D, 0x48454252455720414343454E5420474552455348204D555144414D20),
  (0x59E, 0x48454252455720414343454E542047455253484159494D20),
  (0x59F, 0x48454252455720414343454E54205141524E4559205041524120),
  (0x5A0, 0x48454252455720414343454E542054454C49534841204745444F4C4120),
  (0x5A1, 0x48454252455720414343454E542050415A455220),
  (0x5A2, 0x48454252455720414343454E542041544E414820484146554B4820),
  (0x5A3, 0x48454252455720414343454E54204D554E414820),
  (0x5A4, 0x48454252455720414343454E54204D41484150414B4820),
  (0x5A5, 0x48454252455720414343454E54204D45524B484120),
  (0x5A6, 0x48454252455720414343454E54204D45524B4841204B4546554C4120),
  (0x5A7, 0x48454252455720414343454E5420444152474120),
  (0x5A8, 0x48454252455720414343454E54205141444D4120),
  (0x5A9, 0x48454252455720414343454E542054454C4953484120514554414E4120),
  (0x5AA, 0x48454252455720414343454E542059455241482042454E20594F4D4F20),
  (0x5AB, 0x48454252455720414343454E54204F4C4520),
  (0x5AC, 0x48454252455720414343454E5420494C555920),
  (0x5AD, 0x48454252455720414343454E54204445484920),
  (0x5AE, 0x48454252455720414343454E54205A494E4F5220),
  (0x5AF, 0x484542524557204D41524B204D41534F524120434952434C4520),
  (0x5B0, 0x48454252455720504F494E5420534845564120),
  (0x5B1, 0x48454252455720504F494E54204841544146205345474F4C20),
  (0x5B2, 0x48454252455720504F494E5420484154414620504154414820),
  (0x5B3, 0x48454252455720504F494E542048415441462051414D41545320),
  (0x5B4, 0x48454252455720504F494E5420484952495120),
  (0x5B5, 0x48454252455720504F494E5420545345524520),
  (0x5B6, 0x48454252455720504F494E54205345474F4C20),
  (0x5B7, 0x48454252455720504F494E5420504154414820),
  (0x5B8, 0x48454252455720504F494E542051414D41545320),
  (0x5B9, 0x48454252455720504F494E5420484F4C414D20),
  (0x5BA, 0x48454252455720504F494E5420484F4C414D20484153455220464F522056415620),
  (0x5BB, 0x48454252455720504F494E542051554255545320),
  (0x5BC, 0x48454252455720504F494E5420444147455348204F52204D4150495120),
  (0x5BD, 0x48454252455720504F494E54204D4554454720),
  (0x5BE, 0x4845425245572050554E4354554154494F4E204D4151414620),
  (0x5BF, 0x48454252455720504F494E54205241464520),
  (0x5C0, 0x4845425245572050554E4354554154494F4E20504153455120),
  (0x5C1, 0x48454252455720504F494E54205348494E20444F5420),
  (0x5C2, 0x48454252455720504F494E542053494E20444F5420),
  (0x5C3, 0x4845425245572050554E4354554154494F4E20534F4620504153555120),
  (0x5C4, 0x484542524557204D41524B20555050455220444F5420),
  (0x5C5, 0x484542524557204D41524B204C4F57455220444F5420),
  (0x5C6, 0x4845425245572050554E4354554154494F4E204E554E20484146554B484120),
  (0x5C7, 0x48454252455720504F494E542051414D41545320514154414E20),
  (0x5D0, 0x484542524557204C455454455220414C454620),
  (0x5D1, 0x484542524557204C45545445522042455420),
  (0x5D2, 0x484542524557204C45545445522047494D454C20),
  (0x5D3, 0x484542524557204C45545445522044414C455420),
  (0x5D4, 0x484542524557204C455454455220484520),
  (0x5D5, 0x484542524557204C45545445522056415620),
  (0x5D6, 0x484542524557204C4554544552205A4159494E20),
  (0x5D7, 0x484542524557204C45545445522048455420),
  (0x5D8, 0x484542524557204C45545445522054455420),
  (0x5D9, 0x484542524557204C455454455220594F4420)]
def names_22 : List (Nat × Nat) := [
  (0x5DA, 0x484542524557204C45545445522046494E414C204B414620),
  (0x5DB, 0x484542524557204C4554544552204B414620),
  (0x5DC, 0x484542524557204C4554544552204C414D454420),
  (0x5DD, 0x484542524557204C45545445522046494E414C204D454D20),
  (0x5DE, 0x484542524557204C4554544552204D454D20),
  (0x5DF, 0x484542524557204C45545445522046494E414C204E554E20),
  (0x5E0, 0x484542524557204C4554544552204E554E20),
  (0x5E1, 0x484542524557204C45545445522053414D454B4820),
  (0x5E2, 0x484542524557204C4554544552204159494E20),
  (0x5E3, 0x484542524557204C45545445522046494E414C20504520),
  (0x5E4, 0x484542524557204C455454455220504520),
  (0x5E5, 0x484542524557204C45545445522046494E414C20545341444920),
  (0x5E6, 0x484542524557204C455454455220545341444920),
  (0x5E7, 0x484542524557204C455454455220514F4620),
  (0x5E8, 0x484542524557204C4554544552205245534820),
  (0x5E9, 0x484542524557204C4554544552205348494E20),
  (0x5EA, 0x484542524557204C45545445522054415620),
  (0x5F0, 0x484542524557204C49474154555245205949444449534820444F55424C452056415620),
  (0x5F1, 0x484542524557204C4947415455524520594944444953482056415620594F4420),
  (0x5F2, 0x484542524557204C49474154555245205949444449534820444F55424C4520594F4420),
  (0x5F3, 0x4845425245572050554E4354554154494F4E2047455245534820),
  (0x5F4, 0x4845425245572050554E4354554154494F4E2047455253484159494D20),
  (0x600, 0x415241424943204E554D424552205349474E20),
  (0x601, 0x415241424943205349474E2053414E414820),
  (0x602, 0x41524142494320464F4F544E4F5445204D41524B455220),
  (0x603, 0x415241424943205349474E20534146484120),
  (0x604, 0x415241424943205349474E2053414D56415420),
  (0x605, 0x415241424943204E554D424552204D41524B2041424F564520),
  (0x606, 0x4152414249432D494E444943204355424520524F4F5420),
  (0x607, 0x4152414249432D494E44494320464F5552544820524F4F5420),
  (0x608, 0x4152414249432052415920),
  (0x609, 0x4152414249432D494E44494320504552204D494C4C45205349474E20),
  (0x60A, 0x4152414249432D494E444943205045522054454E2054484F5553414E44205349474E20),
  (0x60B, 0x41464748414E49205349474E20),
  (0x60C, 0x41524142494320434F4D4D4120),
  (0x60D, 0x415241424943204441544520534550415241544F5220),
  (0x60E, 0x41524142494320504F45544943205645525345205349474E20),
  (0x60F, 0x415241424943205349474E204D4953524120),
  (0x610, 0x415241424943205349474E2053414C4C414C4C41484F5520414C415948452057415353414C4C414D20),
  (0x611, 0x415241424943205349474E20414C4159484520415353414C4C414D20),
  (0x612, 0x415241424943205349474E205241484D4154554C4C414820414C4159484520),
  (0x613, 0x415241424943205349474E205241444920414C4C41484F5520414E485520),
  (0x614, 0x415241424943205349474E2054414B48414C4C555320),
  (0x615, 0x41524142494320534D414C4C20484947482054414820),
  (0x616, 0x41524142494320534D414C4C2048494748204C4947415455524520414C45462057495448204C414D20574954482059454820),
  (0x617, 0x41524142494320534D414C4C2048494748205A41494E20),
  (0x618, 0x41524142494320534D414C4C20464154484120),
  (0x619, 0x41524142494320534D414C4C2044414D4D4120),
  (0x61A, 0x41524142494320534D414C4C204B4153524120),
  (0x61B, 0x4152414249432053454D49434F4C4F4E20),
  (0x61C, 0x415241424943204C4554544552204D41524B20),
  (0x61E, 0x41524142494320545249504C4520444F542050554E4354554154494F4E204D41524B20),
  (0x61F, 0x415241424943205155455354494F4E204D41524B20),
  (0x620, 0x415241424943204C4554544552204B4153484D4952492059454820),
  (0x621, 0x415241424943204C45545445522048414D5A4120),
  (0x622, 0x415241424943204C455454455220414C45462057495448204D414444412041424F564520),
  (0x623, 0x415241424943204C455454455220414C454620574954482048414D5A412041424F564520),
  (0x624, 0x415241424943204C45545445522057415720574954482048414D5A412041424F564520),
  (0x625, 0x415241424943204C455454455220414C454620574954482048414D5A412042454C4F5720),
  (0x626, 0x415241424943204C45545445522059454820574954482048414D5A412041424F564520),
  (0x627, 0x415241424943204C455454455220414C454620),
  (0x628, 0x415241424943204C45545445522042454820),
  (0x629, 0x415241424943204C455454455220544548204D41524255544120),
  (0x62A, 0x415241424943204C45545445522054454820)]
def names_23 : List (Nat × Nat) := [
  (0x62B, 0x415241424943204C4554544552205448454820),
  (0x62C, 0x415241424943204C4554544552204A45454D20),
  (0x62D, 0x415241424943204C45545445522048414820),
  (0x62E, 0x415241424943204C4554544552204B48414820),
  (0x62F, 0x415241424943204C45545445522044414C20),
  (0x630, 0x415241424943204C4554544552205448414C20),
  (0x631, 0x415241424943204C45545445522052454820),
  (0x632, 0x415241424943204C4554544552205A41494E20),
  (0x633, 0x415241424943204C4554544552205345454E20),
  (0x634, 0x415241424943204C455454455220534845454E20),
  (0x635, 0x415241424943204C45545445522053414420),
  (0x636, 0x415241424943204C45545445522044414420),
  (0x637, 0x415241424943204C45545445522054414820),
  (0x638, 0x415241424943204C4554544552205A414820),
  (0x639, 0x415241424943204C45545445522041494E20),
  (0x63A, 0x415241424943204C455454455220474841494E20),
  (0x63B, 0x415241424943204C4554544552204B4548454820574954482054574F20444F54532041424F564520),
  (0x63C, 0x415241424943204C4554544552204B45484548205749544820544852454520444F54532042454C4F5720),
  (0x63D, 0x415241424943204C455454455220464152534920594548205749544820494E564552544544205620),
  (0x63E, 0x415241424943204C45545445522046415253492059454820574954482054574F20444F54532041424F564520),
  (0x63F, 0x415241424943204C455454455220464152534920594548205749544820544852454520444F54532041424F564520),
  (0x640, 0x415241424943205441545745454C20),
  (0x641, 0x415241424943204C45545445522046454820),
  (0x642, 0x415241424943204C45545445522051414620),
  (0x643, 0x415241424943204C4554544552204B414620),
  (0x644, 0x415241424943204C4554544552204C414D20),
  (0x645, 0x415241424943204C4554544552204D45454D20),
  (0x646, 0x415241424943204C4554544552204E4F4F4E20),
  (0x647, 0x415241424943204C45545445522048454820),
  (0x648, 0x415241424943204C45545445522057415720),
  (0x649, 0x415241424943204C455454455220414C4546204D414B5355524120),
  (0x64A, 0x415241424943204C45545445522059454820),
  (0x64B, 0x41524142494320464154484154414E20),
  (0x64C, 0x4152414249432044414D4D4154414E20),
  (0x64D, 0x415241424943204B4153524154414E20),
  (0x64E, 0x41524142494320464154484120),
  (0x64F, 0x4152414249432044414D4D4120),
  (0x650, 0x415241424943204B4153524120),
  (0x651, 0x4152414249432053484144444120),
  (0x652, 0x4152414249432053554B554E20),
  (0x653, 0x415241424943204D41444441482041424F564520),
  (0x654, 0x4152414249432048414D5A412041424F564520),
  (0x655, 0x4152414249432048414D5A412042454C4F5720),
  (0x656, 0x4152414249432053554253435249505420414C454620),
  (0x657, 0x41524142494320494E5645525445442044414D4D4120),
  (0x658, 0x415241424943204D41524B204E4F4F4E204748554E4E4120),
  (0x659, 0x415241424943205A574152414B415920),
  (0x65A, 0x41524142494320564F57454C205349474E20534D414C4C20562041424F564520),
  (0x65B, 0x41524142494320564F57454C205349474E20494E56455254454420534D414C4C20562041424F564520),
  (0x65C, 0x41524142494320564F57454C205349474E20444F542042454C4F5720),
  (0x65D, 0x4152414249432052455645525345442044414D4D4120),
  (0x65E, 0x41524142494320464154484120574954482054574F20444F545320),
  (0x65F, 0x41524142494320574156592048414D5A412042454C4F5720),
  (0x660, 0x4152414249432D494E444943204449474954205A45524F20),
  (0x661, 0x4152414249432D494E444943204449474954204F4E4520),
  (0x662, 0x4152414249432D494E4449432044494749542054574F20),
  (0x663, 0x4152414249432D494E44494320444947495420544852454520),
  (0x664, 0x4152414249432D494E44494320444947495420464F555220),
  (0x665, 0x4152414249432D494E444943204449474954204649564520),
  (0x666, 0x4152414249432D494E4449432044494749542053495820),
  (0x667, 0x4152414249432D494E44494320444947495420534556454E20),
  (0x668, 0x4152414249432D494E44494320444947495420454947485420),
  (0x669, 0x4152414249432D494E444943204449474954204E494E4520),
  (0x66A, 0x4152414249432050455243454E54205349474E20)]
def names_24 : List (Nat × Nat) := [
  (0x66B, 0x41524142494320444543494D414C20534550415241544F5220),
  (0x66C, 0x4152414249432054484F5553414E445320534550415241544F5220),
  (0x66D, 0x415241424943204649564520504F494E544544205354415220),
  (0x66E, 0x415241424943204C455454455220444F544C4553532042454820),
  (0x66F, 0x415241424943204C455454455220444F544C4553532051414620),
  (0x670, 0x415241424943204C455454455220535550455253435249505420414C454620),
  (0x671, 0x415241424943204C455454455220414C4546205741534C4120),
  (0x672, 0x415241424943204C455454455220414C4546205749544820574156592048414D5A412041424F564520),
  (0x673, 0x415241424943204C455454455220414C4546205749544820574156592048414D5A412042454C4F5720),
  (0x674, 0x415241424943204C455454455220484947482048414D5A4120),
  (0x675, 0x415241424943204C455454455220484947482048414D5A4120414C454620),
  (0x676, 0x415241424943204C455454455220484947482048414D5A412057415720),
  (0x677, 0x415241424943204C4554544552205520574954482048414D5A412041424F564520),
  (0x678, 0x415241424943204C455454455220484947482048414D5A412059454820),
  (0x679, 0x415241424943204C4554544552205454454820),
  (0x67A, 0x415241424943204C45545445522054544548454820),
  (0x67B, 0x415241424943204C4554544552204245454820),
  (0x67C, 0x415241424943204C45545445522054454820574954482052494E4720),
  (0x67D, 0x415241424943204C455454455220544548205749544820544852454520444F54532041424F564520444F574E574152445320),
  (0x67E, 0x415241424943204C45545445522050454820),
  (0x67F, 0x415241424943204C455454455220544548454820),
  (0x680, 0x415241424943204C455454455220424548454820),
  (0x681, 0x415241424943204C45545445522048414820574954482048414D5A412041424F564520),
  (0x682, 0x415241424943204C45545445522048414820574954482054574F20444F545320564552544943414C2041424F564520),
  (0x683, 0x415241424943204C4554544552204E59454820),
  (0x684, 0x415241424943204C4554544552204459454820),
  (0x685, 0x415241424943204C455454455220484148205749544820544852454520444F54532041424F564520),
  (0x686, 0x415241424943204C455454455220544348454820),
  (0x687, 0x415241424943204C4554544552205443484548454820),
  (0x688, 0x415241424943204C4554544552204444414C20),
  (0x689, 0x415241424943204C45545445522044414C20574954482052494E4720),
  (0x68A, 0x415241424943204C45545445522044414C205749544820444F542042454C4F5720),
  (0x68B, 0x415241424943204C45545445522044414C205749544820444F542042454C4F5720414E4420534D414C4C2054414820),
  (0x68C, 0x415241424943204C455454455220444148414C20),
  (0x68D, 0x415241424943204C45545445522044444148414C20),
  (0x68E, 0x415241424943204C45545445522044554C20),
  (0x68F, 0x415241424943204C45545445522044414C205749544820544852454520444F54532041424F564520444F574E574152445320),
  (0x690, 0x415241424943204C45545445522044414C205749544820464F555220444F54532041424F564520),
  (0x691, 0x415241424943204C4554544552205252454820),
  (0x692, 0x415241424943204C455454455220524548205749544820534D414C4C205620),
  (0x693, 0x415241424943204C45545445522052454820574954482052494E4720),
  (0x694, 0x415241424943204C455454455220524548205749544820444F542042454C4F5720),
  (0x695, 0x415241424943204C455454455220524548205749544820534D414C4C20562042454C4F5720),
  (0x696, 0x415241424943204C455454455220524548205749544820444F542042454C4F5720414E4420444F542041424F564520),
  (0x697, 0x415241424943204C45545445522052454820574954482054574F20444F54532041424F564520),
  (0x698, 0x415241424943204C4554544552204A454820),
  (0x699, 0x415241424943204C455454455220524548205749544820464F555220444F54532041424F564520),
  (0x69A, 0x415241424943204C4554544552205345454E205749544820444F542042454C4F5720414E4420444F542041424F564520),
  (0x69B, 0x415241424943204C4554544552205345454E205749544820544852454520444F54532042454C4F5720),
  (0x69C, 0x415241424943204C4554544552205345454E205749544820544852454520444F54532042454C4F5720414E4420544852454520444F54532041424F564520),
  (0x69D, 0x415241424943204C45545445522053414420574954482054574F20444F54532042454C4F5720),
  (0x69E, 0x415241424943204C455454455220534144205749544820544852454520444F54532041424F564520),
  (0x69F, 0x415241424943204C455454455220544148205749544820544852454520444F54532041424F564520),
  (0x6A0, 0x415241424943204C45545445522041494E205749544820544852454520444F54532041424F564520),
  (0x6A1, 0x415241424943204C455454455220444F544C4553532046454820),
  (0x6A2, 0x415241424943204C455454455220464548205749544820444F54204D4F5645442042454C4F5720),
  (0x6A3, 0x415241424943204C455454455220464548205749544820444F542042454C4F5720),
  (0x6A4, 0x415241424943204C45545445522056454820),
  (0x6A5, 0x415241424943204C455454455220464548205749544820544852454520444F54532042454C4F5720),
  (0x6A6, 0x415241424943204C455454455220504548454820),
  (0x6A7, 0x415241424943204C455454455220514146205749544820444F542041424F564520),
  (0x6A8, 0x415241424943204C455454455220514146205749544820544852454520444F54532041424F564520),
  (0x6A9, 0x415241424943204C4554544552204B4548454820),
  (0x6AA, 0x415241424943204C4554544552205357415348204B414620)]
def names_25 : List (Nat × Nat) := [
  (0x6AB, 0x415241424943204C4554544552204B414620574954482052494E4720),
  (0x6AC, 0x415241424943204C4554544552204B4146205749544820444F542041424F564520),
  (0x6AD, 0x415241424943204C4554544552204E4720),
  (0x6AE, 0x415241424943204C4554544552204B4146205749544820544852454520444F54532042454C4F5720),
  (0x6AF, 0x415241424943204C45545445522047414620),
  (0x6B0, 0x415241424943204C45545445522047414620574954482052494E4720),
  (0x6B1, 0x415241424943204C4554544552204E474F454820),
  (0x6B2, 0x415241424943204C45545445522047414620574954482054574F20444F54532042454C4F5720),
  (0x6B3, 0x415241424943204C4554544552204755454820),
  (0x6B4, 0x415241424943204C455454455220474146205749544820544852454520444F54532041424F564520),
  (0x6B5, 0x415241424943204C4554544552204C414D205749544820534D414C4C205620),
  (0x6B6, 0x415241424943204C4554544552204C414D205749544820444F542041424F564520),
  (0x6B7, 0x415241424943204C4554544552204C414D205749544820544852454520444F54532041424F564520),
  (0x6B8, 0x415241424943204C4554544552204C414D205749544820544852454520444F54532042454C4F5720),
  (0x6B9, 0x415241424943204C4554544552204E4F4F4E205749544820444F542042454C4F5720),
  (0x6BA, 0x415241424943204C4554544552204E4F4F4E204748554E4E4120),
  (0x6BB, 0x415241424943204C455454455220524E4F4F4E20),
  (0x6BC, 0x415241424943204C4554544552204E4F4F4E20574954482052494E4720),
  (0x6BD, 0x415241424943204C4554544552204E4F4F4E205749544820544852454520444F54532041424F564520),
  (0x6BE, 0x415241424943204C45545445522048454820444F4143484153484D454520),
  (0x6BF, 0x415241424943204C4554544552205443484548205749544820444F542041424F564520),
  (0x6C0, 0x415241424943204C4554544552204845482057495448205945482041424F564520),
  (0x6C1, 0x415241424943204C45545445522048454820474F414C20),
  (0x6C2, 0x415241424943204C45545445522048454820474F414C20574954482048414D5A412041424F564520),
  (0x6C3, 0x415241424943204C455454455220544548204D41524255544120474F414C20),
  (0x6C4, 0x415241424943204C45545445522057415720574954482052494E4720),
  (0x6C5, 0x415241424943204C4554544552204B49524748495A204F4520),
  (0x6C6, 0x415241424943204C4554544552204F4520),
  (0x6C7, 0x415241424943204C4554544552205520),
  (0x6C8, 0x415241424943204C455454455220595520),
  (0x6C9, 0x415241424943204C4554544552204B49524748495A20595520),
  (0x6CA, 0x415241424943204C45545445522057415720574954482054574F20444F54532041424F564520),
  (0x6CB, 0x415241424943204C455454455220564520),
  (0x6CC, 0x415241424943204C45545445522046415253492059454820),
  (0x6CD, 0x415241424943204C4554544552205945482057495448205441494C20),
  (0x6CE, 0x415241424943204C455454455220594548205749544820534D414C4C205620),
  (0x6CF, 0x415241424943204C455454455220574157205749544820444F542041424F564520),
  (0x6D0, 0x415241424943204C4554544552204520),
  (0x6D1, 0x415241424943204C455454455220594548205749544820544852454520444F54532042454C4F5720),
  (0x6D2, 0x415241424943204C4554544552205945482042415252454520),
  (0x6D3, 0x415241424943204C4554544552205945482042415252454520574954482048414D5A412041424F564520),
  (0x6D4, 0x4152414249432046554C4C2053544F5020),
  (0x6D5, 0x415241424943204C455454455220414520),
  (0x6D6, 0x41524142494320534D414C4C2048494748204C49474154555245205341442057495448204C414D205749544820414C4546204D414B5355524120),
  (0x6D7, 0x41524142494320534D414C4C2048494748204C49474154555245205141462057495448204C414D205749544820414C4546204D414B5355524120),
  (0x6D8, 0x41524142494320534D414C4C2048494748204D45454D20494E495449414C20464F524D20),
  (0x6D9, 0x41524142494320534D414C4C2048494748204C414D20414C454620),
  (0x6DA, 0x41524142494320534D414C4C2048494748204A45454D20),
  (0x6DB, 0x41524142494320534D414C4C204849474820544852454520444F545320),
  (0x6DC, 0x41524142494320534D414C4C2048494748205345454E20),
  (0x6DD, 0x41524142494320454E44204F46204159414820),
  (0x6DE, 0x415241424943205354415254204F462052554220454C2048495A4220),
  (0x6DF, 0x41524142494320534D414C4C204849474820524F554E444544205A45524F20),
  (0x6E0, 0x41524142494320534D414C4C204849474820555052494748542052454354414E47554C4152205A45524F20),
  (0x6E1, 0x41524142494320534D414C4C204849474820444F544C4553532048454144204F46204B48414820),
  (0x6E2, 0x41524142494320534D414C4C2048494748204D45454D2049534F4C4154454420464F524D20),
  (0x6E3, 0x41524142494320534D414C4C204C4F57205345454E20),
  (0x6E4, 0x41524142494320534D414C4C2048494748204D4144444120),
  (0x6E5, 0x41524142494320534D414C4C2057415720),
  (0x6E6, 0x41524142494320534D414C4C2059454820),
  (0x6E7, 0x41524142494320534D414C4C20484947482059454820),
  (0x6E8, 0x41524142494320534D414C4C2048494748204E4F4F4E20),
  (0x6E9, 0x41524142494320504C414345204F462053414A44414820),
  (0x6EA, 0x41524142494320454D5054592043454E545245204C4F572053544F5020)]
def names_26 : List (Nat × Nat) := [
  (0x6EB, 0x41524142494320454D5054592043454E54524520484947482053544F5020),
  (0x6EC, 0x41524142494320524F554E44454420484947482053544F5020574954482046494C4C45442043454E54524520),
  (0x6ED, 0x41524142494320534D414C4C204C4F57204D45454D20),
  (0x6EE, 0x415241424943204C45545445522044414C205749544820494E564552544544205620),
  (0x6EF, 0x415241424943204C455454455220524548205749544820494E564552544544205620),
  (0x6F0, 0x455854454E444544204152414249432D494E444943204449474954205A45524F20),
  (0x6F1, 0x455854454E444544204152414249432D494E444943204449474954204F4E4520),
  (0x6F2, 0x455854454E444544204152414249432D494E4449432044494749542054574F20),
  (0x6F3, 0x455854454E444544204152414249432D494E44494320444947495420544852454520),
  (0x6F4, 0x455854454E444544204152414249432D494E44494320444947495420464F555220),
  (0x6F5, 0x455854454E444544204152414249432D494E444943204449474954204649564520),
  (0x6F6, 0x455854454E444544204152414249432D494E4449432044494749542053495820),
  (0x6F7, 0x455854454E444544204152414249432D494E44494320444947495420534556454E20),
  (0x6F8, 0x455854454E444544204152414249432D494E44494320444947495420454947485420),
  (0x6F9, 0x455854454E444544204152414249432D494E444943204449474954204E494E4520),
  (0x6FA, 0x415241424943204C455454455220534845454E205749544820444F542042454C4F5720),
  (0x6FB, 0x415241424943204C455454455220444144205749544820444F542042454C4F5720),
  (0x6FC, 0x415241424943204C455454455220474841494E205749544820444F542042454C4F5720),
  (0x6FD, 0x415241424943205349474E2053494E44484920414D50455253414E4420),
  (0x6FE, 0x415241424943205349474E2053494E44484920504F5354504F534954494F4E204D454E20),
  (0x6FF, 0x415241424943204C455454455220484548205749544820494E564552544544205620),
  (0x700, 0x53595249414320454E44204F462050415241475241504820),
  (0x701, 0x5359524941432053555052414C494E4541522046554C4C2053544F5020),
  (0x702, 0x535952494143205355424C494E4541522046554C4C2053544F5020),
  (0x703, 0x5359524941432053555052414C494E45415220434F4C4F4E20),
  (0x704, 0x535952494143205355424C494E45415220434F4C4F4E20),
  (0x705, 0x53595249414320484F52495A4F4E54414C20434F4C4F4E20),
  (0x706, 0x53595249414320434F4C4F4E20534B45574544204C45465420),
  (0x707, 0x53595249414320434F4C4F4E20534B4557454420524947485420),
  (0x708, 0x5359524941432053555052414C494E45415220434F4C4F4E20534B45574544204C45465420),
  (0x709, 0x535952494143205355424C494E45415220434F4C4F4E20534B4557454420524947485420),
  (0x70A, 0x53595249414320434F4E5452414354494F4E20),
  (0x70B, 0x535952494143204841524B4C45414E204F42454C555320),
  (0x70C, 0x535952494143204841524B4C45414E204D45544F42454C555320),
  (0x70D, 0x535952494143204841524B4C45414E204153544552495343555320),
  (0x70F, 0x53595249414320414242524556494154494F4E204D41524B20),
  (0x710, 0x535952494143204C455454455220414C41504820),
  (0x711, 0x535952494143204C455454455220535550455253435249505420414C41504820),
  (0x712, 0x535952494143204C4554544552204245544820),
  (0x713, 0x535952494143204C45545445522047414D414C20),
  (0x714, 0x535952494143204C45545445522047414D414C204741525348554E4920),
  (0x715, 0x535952494143204C45545445522044414C41544820),
  (0x716, 0x535952494143204C455454455220444F544C4553532044414C415448205249534820),
  (0x717, 0x535952494143204C455454455220484520),
  (0x718, 0x535952494143204C45545445522057415720),
  (0x719, 0x535952494143204C4554544552205A41494E20),
  (0x71A, 0x535952494143204C4554544552204845544820),
  (0x71B, 0x535952494143204C4554544552205445544820),
  (0x71C, 0x535952494143204C45545445522054455448204741525348554E4920),
  (0x71D, 0x535952494143204C4554544552205955444820),
  (0x71E, 0x535952494143204C4554544552205955444820484520),
  (0x71F, 0x535952494143204C4554544552204B41504820),
  (0x720, 0x535952494143204C4554544552204C414D41444820),
  (0x721, 0x535952494143204C4554544552204D494D20),
  (0x722, 0x535952494143204C4554544552204E554E20),
  (0x723, 0x535952494143204C45545445522053454D4B41544820),
  (0x724, 0x535952494143204C45545445522046494E414C2053454D4B41544820),
  (0x725, 0x535952494143204C4554544552204520),
  (0x726, 0x535952494143204C455454455220504520),
  (0x727, 0x535952494143204C455454455220524556455253454420504520),
  (0x728, 0x535952494143204C455454455220534144484520),
  (0x729, 0x535952494143204C4554544552205141504820),
  (0x72A, 0x535952494143204C4554544552205249534820),
  (0x72B, 0x535952494143204C4554544552205348494E20)]
def names_27 : List (Nat × Nat) := [
  (0x72C, 0x535952494143204C45545445522054415720),
  (0x72D, 0x535952494143204C4554544552205045525349414E20424845544820),
  (0x72E, 0x535952494143204C4554544552205045525349414E204748414D414C20),
  (0x72F, 0x535952494143204C4554544552205045525349414E204448414C41544820),
  (0x730, 0x535952494143205054484148412041424F564520),
  (0x731, 0x535952494143205054484148412042454C4F5720),
  (0x732, 0x5359524941432050544841484120444F5454454420),
  (0x733, 0x535952494143205A51415048412041424F564520),
  (0x734, 0x535952494143205A51415048412042454C4F5720),
  (0x735, 0x535952494143205A514150484120444F5454454420),
  (0x736, 0x5359524941432052424153412041424F564520),
  (0x737, 0x5359524941432052424153412042454C4F5720),
  (0x738, 0x53595249414320444F54544544205A4C414D4120484F52495A4F4E54414C20),
  (0x739, 0x53595249414320444F54544544205A4C414D4120414E47554C415220),
  (0x73A, 0x5359524941432048424153412041424F564520),
  (0x73B, 0x5359524941432048424153412042454C4F5720),
  (0x73C, 0x5359524941432048424153412D455341534120444F5454454420),
  (0x73D, 0x5359524941432045534153412041424F564520),
  (0x73E, 0x5359524941432045534153412042454C4F5720),
  (0x73F, 0x53595249414320525741484120),
  (0x740, 0x5359524941432046454D494E494E4520444F5420),
  (0x741, 0x5359524941432051555348534841594120),
  (0x742, 0x5359524941432052554B4B414B484120),
  (0x743, 0x5359524941432054574F20564552544943414C20444F54532041424F564520),
  (0x744, 0x5359524941432054574F20564552544943414C20444F54532042454C4F5720),
  (0x745, 0x53595249414320544852454520444F54532041424F564520),
  (0x746, 0x53595249414320544852454520444F54532042454C4F5720),
  (0x747, 0x535952494143204F424C49515545204C494E452041424F564520),
  (0x748, 0x535952494143204F424C49515545204C494E452042454C4F5720),
  (0x749, 0x535952494143204D5553494320),
  (0x74A, 0x5359524941432042415252454B4820),
  (0x74D, 0x535952494143204C455454455220534F474449414E205A4841494E20),
  (0x74E, 0x535952494143204C455454455220534F474449414E204B4841504820),
  (0x74F, 0x535952494143204C455454455220534F474449414E20464520),
  (0x750, 0x415241424943204C455454455220424548205749544820544852454520444F545320484F52495A4F4E54414C4C592042454C4F5720),
  (0x751, 0x415241424943204C455454455220424548205749544820444F542042454C4F5720414E4420544852454520444F54532041424F564520),
  (0x752, 0x415241424943204C455454455220424548205749544820544852454520444F545320504F494E54494E4720555057415244532042454C4F5720),
  (0x753, 0x415241424943204C455454455220424548205749544820544852454520444F545320504F494E54494E4720555057415244532042454C4F5720414E442054574F20444F54532041424F564520),
  (0x754, 0x415241424943204C45545445522042454820574954482054574F20444F54532042454C4F5720414E4420444F542041424F564520),
  (0x755, 0x415241424943204C455454455220424548205749544820494E56455254454420534D414C4C20562042454C4F5720),
  (0x756, 0x415241424943204C455454455220424548205749544820534D414C4C205620),
  (0x757, 0x415241424943204C45545445522048414820574954482054574F20444F54532041424F564520),
  (0x758, 0x415241424943204C455454455220484148205749544820544852454520444F545320504F494E54494E4720555057415244532042454C4F5720),
  (0x759, 0x415241424943204C45545445522044414C20574954482054574F20444F545320564552544943414C4C592042454C4F5720414E4420534D414C4C2054414820),
  (0x75A, 0x415241424943204C45545445522044414C205749544820494E56455254454420534D414C4C20562042454C4F5720),
  (0x75B, 0x415241424943204C4554544552205245482057495448205354524F4B4520),
  (0x75C, 0x415241424943204C4554544552205345454E205749544820464F555220444F54532041424F564520),
  (0x75D, 0x415241424943204C45545445522041494E20574954482054574F20444F54532041424F564520),
  (0x75E, 0x415241424943204C45545445522041494E205749544820544852454520444F545320504F494E54494E4720444F574E57415244532041424F564520),
  (0x75F, 0x415241424943204C45545445522041494E20574954482054574F20444F545320564552544943414C4C592041424F564520),
  (0x760, 0x415241424943204C45545445522046454820574954482054574F20444F54532042454C4F5720),
  (0x761, 0x415241424943204C455454455220464548205749544820544852454520444F545320504F494E54494E4720555057415244532042454C4F5720),
  (0x762, 0x415241424943204C4554544552204B45484548205749544820444F542041424F564520),
  (0x763, 0x415241424943204C4554544552204B45484548205749544820544852454520444F54532041424F564520),
  (0x764, 0x415241424943204C4554544552204B45484548205749544820544852454520444F545320504F494E54494E4720555057415244532042454C4F5720),
  (0x765, 0x415241424943204C4554544552204D45454D205749544820444F542041424F564520),
  (0x766, 0x415241424943204C4554544552204D45454D205749544820444F542042454C4F5720),
  (0x767, 0x415241424943204C4554544552204E4F4F4E20574954482054574F20444F54532042454C4F5720),
  (0x768, 0x415241424943204C4554544552204E4F4F4E205749544820534D414C4C2054414820),
  (0x769, 0x415241424943204C4554544552204E4F4F4E205749544820534D414C4C205620),
  (0x76A, 0x415241424943204C4554544552204C414D20574954482042415220),
  (0x76B, 0x415241424943204C45545445522052454820574954482054574F20444F545320564552544943414C4C592041424F564520),
  (0x76C, 0x415241424943204C45545445522052454820574954482048414D5A412041424F564520),
  (0x76D, 0x415241424943204C4554544552205345454E20574954482054574F20444F545320564552544943414C4C592041424F564520)]
def names_28 : List (Nat × Nat) := [
  (0x76E, 0x415241424943204C455454455220484148205749544820534D414C4C20415241424943204C4554544552205441482042454C4F5720),
  (0x76F, 0x415241424943204C455454455220484148205749544820534D414C4C20415241424943204C45545445522054414820414E442054574F20444F545320),
  (0x770, 0x415241424943204C4554544552205345454E205749544820534D414C4C20415241424943204C45545445522054414820414E442054574F20444F545320),
  (0x771, 0x415241424943204C455454455220524548205749544820534D414C4C20415241424943204C45545445522054414820414E442054574F20444F545320),
  (0x772, 0x415241424943204C455454455220484148205749544820534D414C4C20415241424943204C4554544552205441482041424F564520),
  (0x773, 0x415241424943204C455454455220414C4546205749544820455854454E444544204152414249432D494E4449432044494749542054574F2041424F564520),
  (0x774, 0x415241424943204C455454455220414C4546205749544820455854454E444544204152414249432D494E4449432044494749542054485245452041424F564520),
  (0x775, 0x415241424943204C455454455220464152534920594548205749544820455854454E444544204152414249432D494E4449432044494749542054574F2041424F564520),
  (0x776, 0x415241424943204C455454455220464152534920594548205749544820455854454E444544204152414249432D494E4449432044494749542054485245452041424F564520),
  (0x777, 0x415241424943204C455454455220464152534920594548205749544820455854454E444544204152414249432D494E44494320444947495420464F55522042454C4F5720),
  (0x778, 0x415241424943204C455454455220574157205749544820455854454E444544204152414249432D494E4449432044494749542054574F2041424F564520),
  (0x779, 0x415241424943204C455454455220574157205749544820455854454E444544204152414249432D494E4449432044494749542054485245452041424F564520),
  (0x77A, 0x415241424943204C45545445522059454820424152524545205749544820455854454E444544204152414249432D494E4449432044494749542054574F2041424F564520),
  (0x77B, 0x415241424943204C45545445522059454820424152524545205749544820455854454E444544204152414249432D494E4449432044494749542054485245452041424F564520),
  (0x77C, 0x415241424943204C455454455220484148205749544820455854454E444544204152414249432D494E44494320444947495420464F55522042454C4F5720),
  (0x77D, 0x415241424943204C4554544552205345454E205749544820455854454E444544204152414249432D494E44494320444947495420464F55522041424F564520),
  (0x77E, 0x415241424943204C4554544552205345454E205749544820494E564552544544205620),
  (0x77F, 0x415241424943204C4554544552204B414620574954482054574F20444F54532041424F564520),
  (0x780, 0x544841414E41204C45545445522048414120),
  (0x781, 0x544841414E41204C455454455220534841564959414E4920),
  (0x782, 0x544841414E41204C4554544552204E4F4F4E5520),
  (0x783, 0x544841414E41204C45545445522052414120),
  (0x784, 0x544841414E41204C45545445522042414120),
  (0x785, 0x544841414E41204C4554544552204C4841564959414E4920),
  (0x786, 0x544841414E41204C4554544552204B4141465520),
  (0x787, 0x544841414E41204C455454455220414C49465520),
  (0x788, 0x544841414E41204C455454455220564141565520),
  (0x789, 0x544841414E41204C4554544552204D45454D5520),
  (0x78A, 0x544841414E41204C455454455220464141465520),
  (0x78B, 0x544841414E41204C455454455220444841414C5520),
  (0x78C, 0x544841414E41204C4554544552205448414120),
  (0x78D, 0x544841414E41204C4554544552204C41414D5520),
  (0x78E, 0x544841414E41204C455454455220474141465520),
  (0x78F, 0x544841414E41204C455454455220474E41564959414E4920),
  (0x790, 0x544841414E41204C4554544552205345454E5520),
  (0x791, 0x544841414E41204C4554544552204441564959414E4920),
  (0x792, 0x544841414E41204C4554544552205A41564959414E4920),
  (0x793, 0x544841414E41204C4554544552205441564959414E4920),
  (0x794, 0x544841414E41204C45545445522059414120),
  (0x795, 0x544841414E41204C4554544552205041564959414E4920),
  (0x796, 0x544841414E41204C4554544552204A41564959414E4920),
  (0x797, 0x544841414E41204C455454455220434841564959414E4920),
  (0x798, 0x544841414E41204C4554544552205454414120),
  (0x799, 0x544841414E41204C4554544552204848414120),
  (0x79A, 0x544841414E41204C4554544552204B48414120),
  (0x79B, 0x544841414E41204C455454455220544841414C5520),
  (0x79C, 0x544841414E41204C4554544552205A414120),
  (0x79D, 0x544841414E41204C455454455220534845454E5520),
  (0x79E, 0x544841414E41204C45545445522053414144485520),
  (0x79F, 0x544841414E41204C45545445522044414144485520),
  (0x7A0, 0x544841414E41204C455454455220544F20),
  (0x7A1, 0x544841414E41204C4554544552205A4F20),
  (0x7A2, 0x544841414E41204C45545445522041494E5520),
  (0x7A3, 0x544841414E41204C455454455220474841494E5520),
  (0x7A4, 0x544841414E41204C455454455220514141465520),
  (0x7A5, 0x544841414E41204C455454455220574141565520),
  (0x7A6, 0x544841414E412041424146494C4920),
  (0x7A7, 0x544841414E4120414142414146494C4920),
  (0x7A8, 0x544841414E412049424946494C4920),
  (0x7A9, 0x544841414E4120454542454546494C4920),
  (0x7AA, 0x544841414E412055425546494C4920),
  (0x7AB, 0x544841414E41204F4F424F4F46494C4920),
  (0x7AC, 0x544841414E412045424546494C4920),
  (0x7AD, 0x544841414E4120455942455946494C4920)]
def names_29 : List (Nat × Nat) := [
  (0x7AE, 0x544841414E41204F424F46494C4920),
  (0x7AF, 0x544841414E41204F41424F4146494C4920),
  (0x7B0, 0x544841414E412053554B554E20),
  (0x7B1, 0x544841414E41204C4554544552204E414120),
  (0x7C0, 0x4E4B4F204449474954205A45524F20),
  (0x7C1, 0x4E4B4F204449474954204F4E4520),
  (0x7C2, 0x4E4B4F2044494749542054574F20),
  (0x7C3, 0x4E4B4F20444947495420544852454520),
  (0x7C4, 0x4E4B4F20444947495420464F555220),
  (0x7C5, 0x4E4B4F204449474954204649564520),
  (0x7C6, 0x4E4B4F2044494749542053495820),
  (0x7C7, 0x4E4B4F20444947495420534556454E20),
  (0x7C8, 0x4E4B4F20444947495420454947485420),
  (0x7C9, 0x4E4B4F204449474954204E494E4520),
  (0x7CA, 0x4E4B4F204C4554544552204120),
  (0x7CB, 0x4E4B4F204C455454455220454520),
  (0x7CC, 0x4E4B4F204C4554544552204920),
  (0x7CD, 0x4E4B4F204C4554544552204520),
  (0x7CE, 0x4E4B4F204C4554544552205520),
  (0x7CF, 0x4E4B4F204C4554544552204F4F20),
  (0x7D0, 0x4E4B4F204C4554544552204F20),
  (0x7D1, 0x4E4B4F204C455454455220444147424153494E4E4120),
  (0x7D2, 0x4E4B4F204C4554544552204E20),
  (0x7D3, 0x4E4B4F204C455454455220424120),
  (0x7D4, 0x4E4B4F204C455454455220504120),
  (0x7D5, 0x4E4B4F204C455454455220544120),
  (0x7D6, 0x4E4B4F204C4554544552204A4120),
  (0x7D7, 0x4E4B4F204C45545445522043484120),
  (0x7D8, 0x4E4B4F204C455454455220444120),
  (0x7D9, 0x4E4B4F204C455454455220524120),
  (0x7DA, 0x4E4B4F204C45545445522052524120),
  (0x7DB, 0x4E4B4F204C455454455220534120),
  (0x7DC, 0x4E4B4F204C45545445522047424120),
  (0x7DD, 0x4E4B4F204C455454455220464120),
  (0x7DE, 0x4E4B4F204C4554544552204B4120),
  (0x7DF, 0x4E4B4F204C4554544552204C4120),
  (0x7E0, 0x4E4B4F204C4554544552204E4120574F4C4F534F20),
  (0x7E1, 0x4E4B4F204C4554544552204D4120),
  (0x7E2, 0x4E4B4F204C4554544552204E594120),
  (0x7E3, 0x4E4B4F204C4554544552204E4120),
  (0x7E4, 0x4E4B4F204C455454455220484120),
  (0x7E5, 0x4E4B4F204C455454455220574120),
  (0x7E6, 0x4E4B4F204C455454455220594120),
  (0x7E7, 0x4E4B4F204C4554544552204E594120574F4C4F534F20),
  (0x7E8, 0x4E4B4F204C4554544552204A4F4E41204A4120),
  (0x7E9, 0x4E4B4F204C4554544552204A4F4E412043484120),
  (0x7EA, 0x4E4B4F204C4554544552204A4F4E4120524120),
  (0x7EB, 0x4E4B4F20434F4D42494E494E472053484F5254204849474820544F4E4520),
  (0x7EC, 0x4E4B4F20434F4D42494E494E472053484F5254204C4F5720544F4E4520),
  (0x7ED, 0x4E4B4F20434F4D42494E494E472053484F525420524953494E4720544F4E4520),
  (0x7EE, 0x4E4B4F20434F4D42494E494E47204C4F4E472044455343454E44494E4720544F4E4520),
  (0x7EF, 0x4E4B4F20434F4D42494E494E47204C4F4E47204849474820544F4E4520),
  (0x7F0, 0x4E4B4F20434F4D42494E494E47204C4F4E47204C4F5720544F4E4520),
  (0x7F1, 0x4E4B4F20434F4D42494E494E47204C4F4E4720524953494E4720544F4E4520),
  (0x7F2, 0x4E4B4F20434F4D42494E494E47204E4153414C495A4154494F4E204D41524B20),
  (0x7F3, 0x4E4B4F20434F4D42494E494E4720444F55424C4520444F542041424F564520),
  (0x7F4, 0x4E4B4F204849474820544F4E452041504F5354524F50484520),
  (0x7F5, 0x4E4B4F204C4F5720544F4E452041504F5354524F50484520),
  (0x7F6, 0x4E4B4F2053594D424F4C204F4F2044454E4E454E20),
  (0x7F7, 0x4E4B4F2053594D424F4C204742414B5552554E454E20),
  (0x7F8, 0x4E4B4F20434F4D4D4120),
  (0x7F9, 0x4E4B4F204558434C414D4154494F4E204D41524B20),
  (0x7FA, 0x4E4B4F204C414A414E59414C414E20),
  (0x800, 0x53414D41524954414E204C455454455220414C414620)]
def names_30 : List (Nat × Nat) := [
  (0x801, 0x53414D41524954414E204C45545445522042495420),
  (0x802, 0x53414D41524954414E204C45545445522047414D414E20),
  (0x803, 0x53414D41524954414E204C45545445522044414C415420),
  (0x804, 0x53414D41524954414E204C455454455220495920),
  (0x805, 0x53414D41524954414E204C45545445522042414120),
  (0x806, 0x53414D41524954414E204C4554544552205A454E20),
  (0x807, 0x53414D41524954414E204C455454455220495420),
  (0x808, 0x53414D41524954414E204C45545445522054495420),
  (0x809, 0x53414D41524954414E204C45545445522059555420),
  (0x80A, 0x53414D41524954414E204C4554544552204B41414620),
  (0x80B, 0x53414D41524954414E204C4554544552204C4142415420),
  (0x80C, 0x53414D41524954414E204C4554544552204D494D20),
  (0x80D, 0x53414D41524954414E204C4554544552204E554E20),
  (0x80E, 0x53414D41524954414E204C45545445522053494E4741415420),
  (0x80F, 0x53414D41524954414E204C455454455220494E20),
  (0x810, 0x53414D41524954414E204C455454455220464920),
  (0x811, 0x53414D41524954414E204C4554544552205453414144495920),
  (0x812, 0x53414D41524954414E204C45545445522051554620),
  (0x813, 0x53414D41524954414E204C4554544552205249534820),
  (0x814, 0x53414D41524954414E204C4554544552205348414E20),
  (0x815, 0x53414D41524954414E204C4554544552205441414620),
  (0x816, 0x53414D41524954414E204D41524B20494E20),
  (0x817, 0x53414D41524954414E204D41524B20494E2D414C414620),
  (0x818, 0x53414D41524954414E204D41524B204F43434C5553494F4E20),
  (0x819, 0x53414D41524954414E204D41524B2044414745534820),
  (0x81A, 0x53414D41524954414E204D4F444946494552204C4554544552204550454E5448455449432059555420),
  (0x81B, 0x53414D41524954414E204D41524B204550454E5448455449432059555420),
  (0x81C, 0x53414D41524954414E20564F57454C205349474E204C4F4E47204520),
  (0x81D, 0x53414D41524954414E20564F57454C205349474E204520),
  (0x81E, 0x53414D41524954414E20564F57454C205349474E204F5645524C4F4E4720414120),
  (0x81F, 0x53414D41524954414E20564F57454C205349474E204C4F4E4720414120),
  (0x820, 0x53414D41524954414E20564F57454C205349474E20414120),
  (0x821, 0x53414D41524954414E20564F57454C205349474E204F5645524C4F4E47204120),
  (0x822, 0x53414D41524954414E20564F57454C205349474E204C4F4E47204120),
  (0x823, 0x53414D41524954414E20564F57454C205349474E204120),
  (0x824, 0x53414D41524954414E204D4F444946494552204C45545445522053484F5254204120),
  (0x825, 0x53414D41524954414E20564F57454C205349474E2053484F5254204120),
  (0x826, 0x53414D41524954414E20564F57454C205349474E204C4F4E47205520),
  (0x827, 0x53414D41524954414E20564F57454C205349474E205520),
  (0x828, 0x53414D41524954414E204D4F444946494552204C4554544552204920),
  (0x829, 0x53414D41524954414E20564F57454C205349474E204C4F4E47204920),
  (0x82A, 0x53414D41524954414E20564F57454C205349474E204920),
  (0x82B, 0x53414D41524954414E20564F57454C205349474E204F20),
  (0x82C, 0x53414D41524954414E20564F57454C205349474E2053554B554E20),
  (0x82D, 0x53414D41524954414E204D41524B204E45515544414120),
  (0x830, 0x53414D41524954414E2050554E4354554154494F4E204E45515544414120),
  (0x831, 0x53414D41524954414E2050554E4354554154494F4E2041465341415120),
  (0x832, 0x53414D41524954414E2050554E4354554154494F4E20414E47454420),
  (0x833, 0x53414D41524954414E2050554E4354554154494F4E2042415520),
  (0x834, 0x53414D41524954414E2050554E4354554154494F4E2041544D41415520),
  (0x835, 0x53414D41524954414E2050554E4354554154494F4E20534849595941414C414120),
  (0x836, 0x53414D41524954414E20414242524556494154494F4E204D41524B20),
  (0x837, 0x53414D41524954414E2050554E4354554154494F4E204D454C4F44494320514954534120),
  (0x838, 0x53414D41524954414E2050554E4354554154494F4E205A4951414120),
  (0x839, 0x53414D41524954414E2050554E4354554154494F4E20514954534120),
  (0x83A, 0x53414D41524954414E2050554E4354554154494F4E205A41454620),
  (0x83B, 0x53414D41524954414E2050554E4354554154494F4E205455525520),
  (0x83C, 0x53414D41524954414E2050554E4354554154494F4E2041524B41414E5520),
  (0x83D, 0x53414D41524954414E2050554E4354554154494F4E20534F46204D4153484641415420),
  (0x83E, 0x53414D41524954414E2050554E4354554154494F4E20414E4E41415520),
  (0x840, 0x4D414E44414943204C45545445522048414C514120),
  (0x841, 0x4D414E44414943204C455454455220414220),
  (0x842, 0x4D414E44414943204C455454455220414720),
  (0x843, 0x4D414E44414943204C455454455220414420)]
def names_31 : List (Nat × Nat) := [
  (0x844, 0x4D414E44414943204C455454455220414820),
  (0x845, 0x4D414E44414943204C455454455220555348454E4E4120),
  (0x846, 0x4D414E44414943204C455454455220415A20),
  (0x847, 0x4D414E44414943204C455454455220495420),
  (0x848, 0x4D414E44414943204C45545445522041545420),
  (0x849, 0x4D414E44414943204C455454455220414B534120),
  (0x84A, 0x4D414E44414943204C455454455220414B20),
  (0x84B, 0x4D414E44414943204C455454455220414C20),
  (0x84C, 0x4D414E44414943204C455454455220414D20),
  (0x84D, 0x4D414E44414943204C455454455220414E20),
  (0x84E, 0x4D414E44414943204C455454455220415320),
  (0x84F, 0x4D414E44414943204C455454455220494E20),
  (0x850, 0x4D414E44414943204C455454455220415020),
  (0x851, 0x4D414E44414943204C45545445522041535A20),
  (0x852, 0x4D414E44414943204C455454455220415120),
  (0x853, 0x4D414E44414943204C455454455220415220),
  (0x854, 0x4D414E44414943204C45545445522041534820),
  (0x855, 0x4D414E44414943204C455454455220415420),
  (0x856, 0x4D414E44414943204C45545445522044555348454E4E4120),
  (0x857, 0x4D414E44414943204C4554544552204B414420),
  (0x858, 0x4D414E44414943204C45545445522041494E20),
  (0x859, 0x4D414E44414943204146465249434154494F4E204D41524B20),
  (0x85A, 0x4D414E4441494320564F43414C495A4154494F4E204D41524B20),
  (0x85B, 0x4D414E444149432047454D494E4154494F4E204D41524B20),
  (0x85E, 0x4D414E444149432050554E4354554154494F4E20),
  (0x860, 0x535952494143204C4554544552204D414C4159414C414D204E474120),
  (0x861, 0x535952494143204C4554544552204D414C4159414C414D204A4120),
  (0x862, 0x535952494143204C4554544552204D414C4159414C414D204E594120),
  (0x863, 0x535952494143204C4554544552204D414C4159414C414D2054544120),
  (0x864, 0x535952494143204C4554544552204D414C4159414C414D204E4E4120),
  (0x865, 0x535952494143204C4554544552204D414C4159414C414D204E4E4E4120),
  (0x866, 0x535952494143204C4554544552204D414C4159414C414D2042484120),
  (0x867, 0x535952494143204C4554544552204D414C4159414C414D20524120),
  (0x868, 0x535952494143204C4554544552204D414C4159414C414D204C4C4120),
  (0x869, 0x535952494143204C4554544552204D414C4159414C414D204C4C4C4120),
  (0x86A, 0x535952494143204C4554544552204D414C4159414C414D2053534120),
  (0x8A0, 0x415241424943204C455454455220424548205749544820534D414C4C20562042454C4F5720),
  (0x8A1, 0x415241424943204C45545445522042454820574954482048414D5A412041424F564520),
  (0x8A2, 0x415241424943204C4554544552204A45454D20574954482054574F20444F54532041424F564520),
  (0x8A3, 0x415241424943204C45545445522054414820574954482054574F20444F54532041424F564520),
  (0x8A4, 0x415241424943204C455454455220464548205749544820444F542042454C4F5720414E4420544852454520444F54532041424F564520),
  (0x8A5, 0x415241424943204C455454455220514146205749544820444F542042454C4F5720),
  (0x8A6, 0x415241424943204C4554544552204C414D205749544820444F55424C452042415220),
  (0x8A7, 0x415241424943204C4554544552204D45454D205749544820544852454520444F54532041424F564520),
  (0x8A8, 0x415241424943204C45545445522059454820574954482054574F20444F54532042454C4F5720414E442048414D5A412041424F564520),
  (0x8A9, 0x415241424943204C45545445522059454820574954482054574F20444F54532042454C4F5720414E4420444F542041424F564520),
  (0x8AA, 0x415241424943204C4554544552205245482057495448204C4F4F5020),
  (0x8AB, 0x415241424943204C455454455220574157205749544820444F542057495448494E20),
  (0x8AC, 0x415241424943204C455454455220524F48494E4759412059454820),
  (0x8AD, 0x415241424943204C4554544552204C4F5720414C454620),
  (0x8AE, 0x415241424943204C45545445522044414C205749544820544852454520444F54532042454C4F5720),
  (0x8AF, 0x415241424943204C455454455220534144205749544820544852454520444F54532042454C4F5720),
  (0x8B0, 0x415241424943204C455454455220474146205749544820494E564552544544205354524F4B4520),
  (0x8B1, 0x415241424943204C45545445522053545241494748542057415720),
  (0x8B2, 0x415241424943204C4554544552205A41494E205749544820494E56455254454420562041424F564520),
  (0x8B3, 0x415241424943204C45545445522041494E205749544820544852454520444F54532042454C4F5720),
  (0x8B4, 0x415241424943204C4554544552204B4146205749544820444F542042454C4F5720),
  (0x8B6, 0x415241424943204C455454455220424548205749544820534D414C4C204D45454D2041424F564520),
  (0x8B7, 0x415241424943204C455454455220504548205749544820534D414C4C204D45454D2041424F564520),
  (0x8B8, 0x415241424943204C455454455220544548205749544820534D414C4C205445482041424F564520),
  (0x8B9, 0x415241424943204C455454455220524548205749544820534D414C4C204E4F4F4E2041424F564520),
  (0x8BA, 0x415241424943204C45545445522059454820574954482054574F20444F54532042454C4F5720414E4420534D414C4C204E4F4F4E2041424F564520),
  (0x8BB, 0x415241424943204C4554544552204146524943414E2046454820),
  (0x8BC, 0x415241424943204C4554544552204146524943414E2051414620)]
def names_32 : List (Nat × Nat) := [
  (0x8BD, 0x415241424943204C4554544552204146524943414E204E4F4F4E20),
  (0x8D4, 0x41524142494320534D414C4C204849474820574F52442041522D52554220),
  (0x8D5, 0x41524142494320534D414C4C20484947482053414420),
  (0x8D6, 0x41524142494320534D414C4C20484947482041494E20),
  (0x8D7, 0x41524142494320534D414C4C20484947482051414620),
  (0x8D8, 0x41524142494320534D414C4C2048494748204E4F4F4E2057495448204B4153524120),
  (0x8D9, 0x41524142494320534D414C4C204C4F57204E4F4F4E2057495448204B4153524120),
  (0x8DA, 0x41524142494320534D414C4C204849474820574F5244204154482D5448414C4154484120),
  (0x8DB, 0x41524142494320534D414C4C204849474820574F52442041532D53414A444120),
  (0x8DC, 0x41524142494320534D414C4C204849474820574F524420414E2D4E49534620),
  (0x8DD, 0x41524142494320534D414C4C204849474820574F52442053414B544120),
  (0x8DE, 0x41524142494320534D414C4C204849474820574F52442051494620),
  (0x8DF, 0x41524142494320534D414C4C204849474820574F524420574151464120),
  (0x8E0, 0x41524142494320534D414C4C204849474820464F4F544E4F5445204D41524B455220),
  (0x8E1, 0x41524142494320534D414C4C2048494748205349474E20534146484120),
  (0x8E2, 0x41524142494320444953505554454420454E44204F46204159414820),
  (0x8E3, 0x415241424943205455524E45442044414D4D412042454C4F5720),
  (0x8E4, 0x415241424943204355524C5920464154484120),
  (0x8E5, 0x415241424943204355524C592044414D4D4120),
  (0x8E6, 0x415241424943204355524C59204B4153524120),
  (0x8E7, 0x415241424943204355524C5920464154484154414E20),
  (0x8E8, 0x415241424943204355524C592044414D4D4154414E20),
  (0x8E9, 0x415241424943204355524C59204B4153524154414E20),
  (0x8EA, 0x41524142494320544F4E45204F4E4520444F542041424F564520),
  (0x8EB, 0x41524142494320544F4E452054574F20444F54532041424F564520),
  (0x8EC, 0x41524142494320544F4E45204C4F4F502041424F564520),
  (0x8ED, 0x41524142494320544F4E45204F4E4520444F542042454C4F5720),
  (0x8EE, 0x41524142494320544F4E452054574F20444F54532042454C4F5720),
  (0x8EF, 0x41524142494320544F4E45204C4F4F502042454C4F5720),
  (0x8F0, 0x415241424943204F50454E20464154484154414E20),
  (0x8F1, 0x415241424943204F50454E2044414D4D4154414E20),
  (0x8F2, 0x415241424943204F50454E204B4153524154414E20),
  (0x8F3, 0x41524142494320534D414C4C20484947482057415720),
  (0x8F4, 0x41524142494320464154484120574954482052494E4720),
  (0x8F5, 0x415241424943204641544841205749544820444F542041424F564520),
  (0x8F6, 0x415241424943204B41535241205749544820444F542042454C4F5720),
  (0x8F7, 0x415241424943204C454654204152524F57484541442041424F564520),
  (0x8F8, 0x415241424943205249474854204152524F57484541442041424F564520),
  (0x8F9, 0x415241424943204C454654204152524F57484541442042454C4F5720),
  (0x8FA, 0x415241424943205249474854204152524F57484541442042454C4F5720),
  (0x8FB, 0x41524142494320444F55424C45205249474854204152524F57484541442041424F564520),
  (0x8FC, 0x41524142494320444F55424C45205249474854204152524F57484541442041424F5645205749544820444F5420),
  (0x8FD, 0x415241424943205249474854204152524F57484541442041424F5645205749544820444F5420),
  (0x8FE, 0x4152414249432044414D4D41205749544820444F5420),
  (0x8FF, 0x415241424943204D41524B205349444557415953204E4F4F4E204748554E4E4120),
  (0x900, 0x444556414E4147415249205349474E20494E5645525445442043414E44524142494E445520),
  (0x901, 0x444556414E4147415249205349474E2043414E44524142494E445520),
  (0x902, 0x444556414E4147415249205349474E20414E55535641524120),
  (0x903, 0x444556414E4147415249205349474E205649534152474120),
  (0x904, 0x444556414E4147415249204C45545445522053484F5254204120),
  (0x905, 0x444556414E4147415249204C4554544552204120),
  (0x906, 0x444556414E4147415249204C455454455220414120),
  (0x907, 0x444556414E4147415249204C4554544552204920),
  (0x908, 0x444556414E4147415249204C455454455220494920),
  (0x909, 0x444556414E4147415249204C4554544552205520),
  (0x90A, 0x444556414E4147415249204C455454455220555520),
  (0x90B, 0x444556414E4147415249204C455454455220564F43414C4943205220),
  (0x90C, 0x444556414E4147415249204C455454455220564F43414C4943204C20),
  (0x90D, 0x444556414E4147415249204C45545445522043414E445241204520),
  (0x90E, 0x444556414E4147415249204C45545445522053484F5254204520),
  (0x90F, 0x444556414E4147415249204C4554544552204520),
  (0x910, 0x444556414E4147415249204C455454455220414920),
  (0x911, 0x444556414E4147415249204C45545445522043414E445241204F20),
  (0x912, 0x444556414E4147415249204C45545445522053484F5254204F20)]
def names_33 : List (Nat × Nat) := [
  (0x913, 0x444556414E4147415249204C4554544552204F20),
  (0x914, 0x444556414E4147415249204C455454455220415520),
  (0x915, 0x444556414E4147415249204C4554544552204B4120),
  (0x916, 0x444556414E4147415249204C4554544552204B484120),
  (0x917, 0x444556414E4147415249204C455454455220474120),
  (0x918, 0x444556414E4147415249204C45545445522047484120),
  (0x919, 0x444556414E4147415249204C4554544552204E474120),
  (0x91A, 0x444556414E4147415249204C455454455220434120),
  (0x91B, 0x444556414E4147415249204C45545445522043484120),
  (0x91C, 0x444556414E4147415249204C4554544552204A4120),
  (0x91D, 0x444556414E4147415249204C4554544552204A484120),
  (0x91E, 0x444556414E4147415249204C4554544552204E594120),
  (0x91F, 0x444556414E4147415249204C45545445522054544120),
  (0x920, 0x444556414E4147415249204C4554544552205454484120),
  (0x921, 0x444556414E4147415249204C45545445522044444120),
  (0x922, 0x444556414E4147415249204C4554544552204444484120),
  (0x923, 0x444556414E4147415249204C4554544552204E4E4120),
  (0x924, 0x444556414E4147415249204C455454455220544120),
  (0x925, 0x444556414E4147415249204C45545445522054484120),
  (0x926, 0x444556414E4147415249204C455454455220444120),
  (0x927, 0x444556414E4147415249204C45545445522044484120),
  (0x928, 0x444556414E4147415249204C4554544552204E4120),
  (0x929, 0x444556414E4147415249204C4554544552204E4E4E4120),
  (0x92A, 0x444556414E4147415249204C455454455220504120),
  (0x92B, 0x444556414E4147415249204C45545445522050484120),
  (0x92C, 0x444556414E4147415249204C455454455220424120),
  (0x92D, 0x444556414E4147415249204C45545445522042484120),
  (0x92E, 0x444556414E4147415249204C4554544552204D4120),
  (0x92F, 0x444556414E4147415249204C455454455220594120),
  (0x930, 0x444556414E4147415249204C455454455220524120),
  (0x931, 0x444556414E4147415249204C45545445522052524120),
  (0x932, 0x444556414E4147415249204C4554544552204C4120),
  (0x933, 0x444556414E4147415249204C4554544552204C4C4120),
  (0x934, 0x444556414E4147415249204C4554544552204C4C4C4120),
  (0x935, 0x444556414E4147415249204C455454455220564120),
  (0x936, 0x444556414E4147415249204C45545445522053484120),
  (0x937, 0x444556414E4147415249204C45545445522053534120),
  (0x938, 0x444556414E4147415249204C455454455220534120),
  (0x939, 0x444556414E4147415249204C455454455220484120),
  (0x93A, 0x444556414E414741524920564F57454C205349474E204F4520),
  (0x93B, 0x444556414E414741524920564F57454C205349474E204F4F4520),
  (0x93C, 0x444556414E4147415249205349474E204E554B544120),
  (0x93D, 0x444556414E4147415249205349474E20415641475241484120),
  (0x93E, 0x444556414E414741524920564F57454C205349474E20414120),
  (0x93F, 0x444556414E414741524920564F57454C205349474E204920),
  (0x940, 0x444556414E414741524920564F57454C205349474E20494920),
  (0x941, 0x444556414E414741524920564F57454C205349474E205520),
  (0x942, 0x444556414E414741524920564F57454C205349474E20555520),
  (0x943, 0x444556414E414741524920564F57454C205349474E20564F43414C4943205220),
  (0x944, 0x444556414E414741524920564F57454C205349474E20564F43414C494320525220),
  (0x945, 0x444556414E414741524920564F57454C205349474E2043414E445241204520),
  (0x946, 0x444556414E414741524920564F57454C205349474E2053484F5254204520),
  (0x947, 0x444556414E414741524920564F57454C205349474E204520),
  (0x948, 0x444556414E414741524920564F57454C205349474E20414920),
  (0x949, 0x444556414E414741524920564F57454C205349474E2043414E445241204F20),
  (0x94A, 0x444556414E414741524920564F57454C205349474E2053484F5254204F20),
  (0x94B, 0x444556414E414741524920564F57454C205349474E204F20),
  (0x94C, 0x444556414E414741524920564F57454C205349474E20415520),
  (0x94D, 0x444556414E4147415249205349474E20564952414D4120),
  (0x94E, 0x444556414E414741524920564F57454C205349474E2050524953485448414D41545241204520),
  (0x94F, 0x444556414E414741524920564F57454C205349474E20415720),
  (0x950, 0x444556414E4147415249204F4D20),
  (0x951, 0x444556414E414741524920535452455353205349474E2055444154544120),
  (0x952, 0x444556414E414741524920535452455353205349474E20414E55444154544120)]
def names_34 : List (Nat × Nat) := [
  (0x953, 0x444556414E414741524920475241564520414343454E5420),
  (0x954, 0x444556414E414741524920414355544520414343454E5420),
  (0x955, 0x444556414E414741524920564F57454C205349474E2043414E445241204C4F4E47204520),
  (0x956, 0x444556414E414741524920564F57454C205349474E20554520),
  (0x957, 0x444556414E414741524920564F57454C205349474E2055554520),
  (0x958, 0x444556414E4147415249204C455454455220514120),
  (0x959, 0x444556414E4147415249204C4554544552204B48484120),
  (0x95A, 0x444556414E4147415249204C4554544552204748484120),
  (0x95B, 0x444556414E4147415249204C4554544552205A4120),
  (0x95C, 0x444556414E4147415249204C455454455220444444484120),
  (0x95D, 0x444556414E4147415249204C45545445522052484120),
  (0x95E, 0x444556414E4147415249204C455454455220464120),
  (0x95F, 0x444556414E4147415249204C45545445522059594120),
  (0x960, 0x444556414E4147415249204C455454455220564F43414C494320525220),
  (0x961, 0x444556414E4147415249204C455454455220564F43414C4943204C4C20),
  (0x962, 0x444556414E414741524920564F57454C205349474E20564F43414C4943204C20),
  (0x963, 0x444556414E414741524920564F57454C205349474E20564F43414C4943204C4C20),
  (0x964, 0x444556414E41474152492044414E444120),
  (0x965, 0x444556414E414741524920444F55424C452044414E444120),
  (0x966, 0x444556414E4147415249204449474954205A45524F20),
  (0x967, 0x444556414E4147415249204449474954204F4E4520),
  (0x968, 0x444556414E41474152492044494749542054574F20),
  (0x969, 0x444556414E414741524920444947495420544852454520),
  (0x96A, 0x444556414E414741524920444947495420464F555220),
  (0x96B, 0x444556414E4147415249204449474954204649564520),
  (0x96C, 0x444556414E41474152492044494749542053495820),
  (0x96D, 0x444556414E414741524920444947495420534556454E20),
  (0x96E, 0x444556414E414741524920444947495420454947485420),
  (0x96F, 0x444556414E4147415249204449474954204E494E4520),
  (0x970, 0x444556414E414741524920414242524556494154494F4E205349474E20),
  (0x971, 0x444556414E4147415249205349474E20484947482053504143494E4720444F5420),
  (0x972, 0x444556414E4147415249204C45545445522043414E445241204120),
  (0x973, 0x444556414E4147415249204C4554544552204F4520),
  (0x974, 0x444556414E4147415249204C4554544552204F4F4520),
  (0x975, 0x444556414E4147415249204C455454455220415720),
  (0x976, 0x444556414E4147415249204C455454455220554520),
  (0x977, 0x444556414E4147415249204C45545445522055554520),
  (0x978, 0x444556414E4147415249204C4554544552204D4152574152492044444120),
  (0x979, 0x444556414E4147415249204C4554544552205A484120),
  (0x97A, 0x444556414E4147415249204C455454455220484541565920594120),
  (0x97B, 0x444556414E4147415249204C45545445522047474120),
  (0x97C, 0x444556414E4147415249204C4554544552204A4A4120),
  (0x97D, 0x444556414E4147415249204C455454455220474C4F5454414C2053544F5020),
  (0x97E, 0x444556414E4147415249204C4554544552204444444120),
  (0x97F, 0x444556414E4147415249204C45545445522042424120),
  (0x980, 0x42454E47414C4920414E4A4920),
  (0x981, 0x42454E47414C49205349474E2043414E44524142494E445520),
  (0x982, 0x42454E47414C49205349474E20414E55535641524120),
  (0x983, 0x42454E47414C49205349474E205649534152474120),
  (0x985, 0x42454E47414C49204C4554544552204120),
  (0x986, 0x42454E47414C49204C455454455220414120),
  (0x987, 0x42454E47414C49204C4554544552204920),
  (0x988, 0x42454E47414C49204C455454455220494920),
  (0x989, 0x42454E47414C49204C4554544552205520),
  (0x98A, 0x42454E47414C49204C455454455220555520),
  (0x98B, 0x42454E47414C49204C455454455220564F43414C4943205220),
  (0x98C, 0x42454E47414C49204C455454455220564F43414C4943204C20),
  (0x98F, 0x42454E47414C49204C4554544552204520),
  (0x990, 0x42454E47414C49204C455454455220414920),
  (0x993, 0x42454E47414C49204C4554544552204F20),
  (0x994, 0x42454E47414C49204C455454455220415520),
  (0x995, 0x42454E47414C49204C4554544552204B4120),
  (0x996, 0x42454E47414C49204C4554544552204B484120),
  (0x997, 0x42454E47414C49204C455454455220474120)]
def names_35 : List (Nat × Nat) := [
  (0x998, 0x42454E47414C49204C45545445522047484120),
  (0x999, 0x42454E47414C49204C4554544552204E474120),
  (0x99A, 0x42454E47414C49204C455454455220434120),
  (0x99B, 0x42454E47414C49204C45545445522043484120),
  (0x99C, 0x42454E47414C49204C4554544552204A4120),
  (0x99D, 0x42454E47414C49204C4554544552204A484120),
  (0x99E, 0x42454E47414C49204C4554544552204E594120),
  (0x99F, 0x42454E47414C49204C45545445522054544120),
  (0x9A0, 0x42454E47414C49204C4554544552205454484120),
  (0x9A1, 0x42454E47414C49204C45545445522044444120),
  (0x9A2, 0x42454E47414C49204C4554544552204444484120),
  (0x9A3, 0x42454E47414C49204C4554544552204E4E4120),
  (0x9A4, 0x42454E47414C49204C455454455220544120),
  (0x9A5, 0x42454E47414C49204C45545445522054484120),
  (0x9A6, 0x42454E47414C49204C455454455220444120),
  (0x9A7, 0x42454E47414C49204C45545445522044484120),
  (0x9A8, 0x42454E47414C49204C4554544552204E4120),
  (0x9AA, 0x42454E47414C49204C455454455220504120),
  (0x9AB, 0x42454E47414C49204C45545445522050484120),
  (0x9AC, 0x42454E47414C49204C455454455220424120),
  (0x9AD, 0x42454E47414C49204C45545445522042484120),
  (0x9AE, 0x42454E47414C49204C4554544552204D4120),
  (0x9AF, 0x42454E47414C49204C455454455220594120),
  (0x9B0, 0x42454E47414C49204C455454455220524120),
  (0x9B2, 0x42454E47414C49204C4554544552204C4120),
  (0x9B6, 0x42454E47414C49204C45545445522053484120),
  (0x9B7, 0x42454E47414C49204C45545445522053534120),
  (0x9B8, 0x42454E47414C49204C455454455220534120),
  (0x9B9, 0x42454E47414C49204C455454455220484120),
  (0x9BC, 0x42454E47414C49205349474E204E554B544120),
  (0x9BD, 0x42454E47414C49205349474E20415641475241484120),
  (0x9BE, 0x42454E47414C4920564F57454C205349474E20414120),
  (0x9BF, 0x42454E47414C4920564F57454C205349474E204920),
  (0x9C0, 0x42454E47414C4920564F57454C205349474E20494920),
  (0x9C1, 0x42454E47414C4920564F57454C205349474E205520),
  (0x9C2, 0x42454E47414C4920564F57454C205349474E20555520),
  (0x9C3, 0x42454E47414C4920564F57454C205349474E20564F43414C4943205220),
  (0x9C4, 0x42454E47414C4920564F57454C205349474E20564F43414C494320525220),
  (0x9C7, 0x42454E47414C4920564F57454C205349474E204520),
  (0x9C8, 0x42454E47414C4920564F57454C205349474E20414920),
  (0x9CB, 0x42454E47414C4920564F57454C205349474E204F20),
  (0x9CC, 0x42454E47414C4920564F57454C205349474E20415520),
  (0x9CD, 0x42454E47414C49205349474E20564952414D4120),
  (0x9CE, 0x42454E47414C49204C4554544552204B48414E444120544120),
  (0x9D7, 0x42454E47414C49204155204C454E475448204D41524B20),
  (0x9DC, 0x42454E47414C49204C45545445522052524120),
  (0x9DD, 0x42454E47414C49204C45545445522052484120),
  (0x9DF, 0x42454E47414C49204C45545445522059594120),
  (0x9E0, 0x42454E47414C49204C455454455220564F43414C494320525220),
  (0x9E1, 0x42454E47414C49204C455454455220564F43414C4943204C4C20),
  (0x9E2, 0x42454E47414C4920564F57454C205349474E20564F43414C4943204C20),
  (0x9E3, 0x42454E47414C4920564F57454C205349474E20564F43414C4943204C4C20),
  (0x9E6, 0x42454E47414C49204449474954205A45524F20),
  (0x9E7, 0x42454E47414C49204449474954204F4E4520),
  (0x9E8, 0x42454E47414C492044494749542054574F20),
  (0x9E9, 0x42454E47414C4920444947495420544852454520),
  (0x9EA, 0x42454E47414C4920444947495420464F555220),
  (0x9EB, 0x42454E47414C49204449474954204649564520),
  (0x9EC, 0x42454E47414C492044494749542053495820),
  (0x9ED, 0x42454E47414C4920444947495420534556454E20),
  (0x9EE, 0x42454E47414C4920444947495420454947485420),
  (0x9EF, 0x42454E47414C49204449474954204E494E4520),
  (0x9F0, 0x42454E47414C49204C45545445522052412057495448204D4944444C4520444941474F4E414C20),
  (0x9F1, 0x42454E47414C49204C45545445522052412057495448204C4F57455220444941474F4E414C20)]
def names_36 : List (Nat × Nat) := [
  (0x9F2, 0x42454E47414C49205255504545204D41524B20),
  (0x9F3, 0x42454E47414C49205255504545205349474E20),
  (0x9F4, 0x42454E47414C492043555252454E4359204E554D455241544F52204F4E4520),
  (0x9F5, 0x42454E47414C492043555252454E4359204E554D455241544F522054574F20),
  (0x9F6, 0x42454E47414C492043555252454E4359204E554D455241544F5220544852454520),
  (0x9F7, 0x42454E47414C492043555252454E4359204E554D455241544F5220464F555220),
  (0x9F8, 0x42454E47414C492043555252454E4359204E554D455241544F52204F4E45204C455353205448414E205448452044454E4F4D494E41544F5220),
  (0x9F9, 0x42454E47414C492043555252454E43592044454E4F4D494E41544F52205349585445454E20),
  (0x9FA, 0x42454E47414C492049535348415220),
  (0x9FB, 0x42454E47414C492047414E4441204D41524B20),
  (0x9FC, 0x42454E47414C49204C455454455220564544494320414E55535641524120),
  (0x9FD, 0x42454E47414C4920414242524556494154494F4E205349474E20),
  (0xA01, 0x4755524D554B4849205349474E204144414B2042494E444920),
  (0xA02, 0x4755524D554B4849205349474E2042494E444920),
  (0xA03, 0x4755524D554B4849205349474E205649534152474120),
  (0xA05, 0x4755524D554B4849204C4554544552204120),
  (0xA06, 0x4755524D554B4849204C455454455220414120),
  (0xA07, 0x4755524D554B4849204C4554544552204920),
  (0xA08, 0x4755524D554B4849204C455454455220494920),
  (0xA09, 0x4755524D554B4849204C4554544552205520),
  (0xA0A, 0x4755524D554B4849204C455454455220555520),
  (0xA0F, 0x4755524D554B4849204C455454455220454520),
  (0xA10, 0x4755524D554B4849204C455454455220414920),
  (0xA13, 0x4755524D554B4849204C4554544552204F4F20),
  (0xA14, 0x4755524D554B4849204C455454455220415520),
  (0xA15, 0x4755524D554B4849204C4554544552204B4120),
  (0xA16, 0x4755524D554B4849204C4554544552204B484120),
  (0xA17, 0x4755524D554B4849204C455454455220474120),
  (0xA18, 0x4755524D554B4849204C45545445522047484120),
  (0xA19, 0x4755524D554B4849204C4554544552204E474120),
  (0xA1A, 0x4755524D554B4849204C455454455220434120),
  (0xA1B, 0x4755524D554B4849204C45545445522043484120),
  (0xA1C, 0x4755524D554B4849204C4554544552204A4120),
  (0xA1D, 0x4755524D554B4849204C4554544552204A484120),
  (0xA1E, 0x4755524D554B4849204C4554544552204E594120),
  (0xA1F, 0x4755524D554B4849204C45545445522054544120),
  (0xA20, 0x4755524D554B4849204C4554544552205454484120),
  (0xA21, 0x4755524D554B4849204C45545445522044444120),
  (0xA22, 0x4755524D554B4849204C4554544552204444484120),
  (0xA23, 0x4755524D554B4849204C4554544552204E4E4120),
  (0xA24, 0x4755524D554B4849204C455454455220544120),
  (0xA25, 0x4755524D554B4849204C45545445522054484120),
  (0xA26, 0x4755524D554B4849204C455454455220444120),
  (0xA27, 0x4755524D554B4849204C45545445522044484120),
  (0xA28, 0x4755524D554B4849204C4554544552204E4120),
  (0xA2A, 0x4755524D554B4849204C455454455220504120),
  (0xA2B, 0x4755524D554B4849204C45545445522050484120),
  (0xA2C, 0x4755524D554B4849204C455454455220424120),
  (0xA2D, 0x4755524D554B4849204C45545445522042484120),
  (0xA2E, 0x4755524D554B4849204C4554544552204D4120),
  (0xA2F, 0x4755524D554B4849204C455454455220594120),
  (0xA30, 0x4755524D554B4849204C455454455220524120),
  (0xA32, 0x4755524D554B4849204C4554544552204C4120),
  (0xA33, 0x4755524D554B4849204C4554544552204C4C4120),
  (0xA35, 0x4755524D554B4849204C455454455220564120),
  (0xA36, 0x4755524D554B4849204C45545445522053484120),
  (0xA38, 0x4755524D554B4849204C455454455220534120),
  (0xA39, 0x4755524D554B4849204C455454455220484120),
  (0xA3C, 0x4755524D554B4849205349474E204E554B544120),
  (0xA3E, 0x4755524D554B484920564F57454C205349474E20414120),
  (0xA3F, 0x4755524D554B484920564F57454C205349474E204920),
  (0xA40, 0x4755524D554B484920564F57454C205349474E20494920),
  (0xA41, 0x4755524D554B484920564F57454C205349474E205520),
  (0xA42, 0x4755524D554B484920564F57454C205349474E20555520)]
def names_37 : List (Nat × Nat) := [
  (0xA47, 0x4755524D554B484920564F57454C205349474E20454520),
  (0xA48, 0x4755524D554B484920564F57454C205349474E20414920),
  (0xA4B, 0x4755524D554B484920564F57454C205349474E204F4F20),
  (0xA4C, 0x4755524D554B484920564F57454C205349474E20415520),
  (0xA4D, 0x4755524D554B4849205349474E20564952414D4120),
  (0xA51, 0x4755524D554B4849205349474E20554441415420),
  (0xA59, 0x4755524D554B4849204C4554544552204B48484120),
  (0xA5A, 0x4755524D554B4849204C4554544552204748484120),
  (0xA5B, 0x4755524D554B4849204C4554544552205A4120),
  (0xA5C, 0x4755524D554B4849204C45545445522052524120),
  (0xA5E, 0x4755524D554B4849204C455454455220464120),
  (0xA66, 0x4755524D554B4849204449474954205A45524F20),
  (0xA67, 0x4755524D554B4849204449474954204F4E4520),
  (0xA68, 0x4755524D554B48492044494749542054574F20),
  (0xA69, 0x4755524D554B484920444947495420544852454520),
  (0xA6A, 0x4755524D554B484920444947495420464F555220),
  (0xA6B, 0x4755524D554B4849204449474954204649564520),
  (0xA6C, 0x4755524D554B48492044494749542053495820),
  (0xA6D, 0x4755524D554B484920444947495420534556454E20),
  (0xA6E, 0x4755524D554B484920444947495420454947485420),
  (0xA6F, 0x4755524D554B4849204449474954204E494E4520),
  (0xA70, 0x4755524D554B484920544950504920),
  (0xA71, 0x4755524D554B484920414444414B20),
  (0xA72, 0x4755524D554B48492049524920),
  (0xA73, 0x4755524D554B48492055524120),
  (0xA74, 0x4755524D554B484920454B204F4E4B415220),
  (0xA75, 0x4755524D554B4849205349474E2059414B41534820),
  (0xA81, 0x47554A4152415449205349474E2043414E44524142494E445520),
  (0xA82, 0x47554A4152415449205349474E20414E55535641524120),
  (0xA83, 0x47554A4152415449205349474E205649534152474120),
  (0xA85, 0x47554A4152415449204C4554544552204120),
  (0xA86, 0x47554A4152415449204C455454455220414120),
  (0xA87, 0x47554A4152415449204C4554544552204920),
  (0xA88, 0x47554A4152415449204C455454455220494920),
  (0xA89, 0x47554A4152415449204C4554544552205520),
  (0xA8A, 0x47554A4152415449204C455454455220555520),
  (0xA8B, 0x47554A4152415449204C455454455220564F43414C4943205220),
  (0xA8C, 0x47554A4152415449204C455454455220564F43414C4943204C20),
  (0xA8D, 0x47554A415241544920564F57454C2043414E445241204520),
  (0xA8F, 0x47554A4152415449204C4554544552204520),
  (0xA90, 0x47554A4152415449204C455454455220414920),
  (0xA91, 0x47554A415241544920564F57454C2043414E445241204F20),
  (0xA93, 0x47554A4152415449204C4554544552204F20),
  (0xA94, 0x47554A4152415449204C455454455220415520),
  (0xA95, 0x47554A4152415449204C4554544552204B4120),
  (0xA96, 0x47554A4152415449204C4554544552204B484120),
  (0xA97, 0x47554A4152415449204C455454455220474120),
  (0xA98, 0x47554A4152415449204C45545445522047484120),
  (0xA99, 0x47554A4152415449204C4554544552204E474120),
  (0xA9A, 0x47554A4152415449204C455454455220434120),
  (0xA9B, 0x47554A4152415449204C45545445522043484120),
  (0xA9C, 0x47554A4152415449204C4554544552204A4120),
  (0xA9D, 0x47554A4152415449204C4554544552204A484120),
  (0xA9E, 0x47554A4152415449204C4554544552204E594120),
  (0xA9F, 0x47554A4152415449204C45545445522054544120),
  (0xAA0, 0x47554A4152415449204C4554544552205454484120),
  (0xAA1, 0x47554A4152415449204C45545445522044444120),
  (0xAA2, 0x47554A4152415449204C4554544552204444484120),
  (0xAA3, 0x47554A4152415449204C4554544552204E4E4120),
  (0xAA4, 0x47554A4152415449204C455454455220544120),
  (0xAA5, 0x47554A4152415449204C45545445522054484120),
  (0xAA6, 0x47554A4152415449204C455454455220444120),
  (0xAA7, 0x47554A4152415449204C45545445522044484120),
  (0xAA8, 0x47554A4152415449204C4554544552204E4120)]
def names_38 : List (Nat × Nat) := [
  (0xAAA, 0x47554A4152415449204C455454455220504120),
  (0xAAB, 0x47554A4152415449204C45545445522050484120),
  (0xAAC, 0x47554A4152415449204C455454455220424120),
  (0xAAD, 0x47554A4152415449204C45545445522042484120),
  (0xAAE, 0x47554A4152415449204C4554544552204D4120),
  (0xAAF, 0x47554A4152415449204C455454455220594120),
  (0xAB0, 0x47554A4152415449204C455454455220524120),
  (0xAB2, 0x47554A4152415449204C4554544552204C4120),
  (0xAB3, 0x47554A4152415449204C4554544552204C4C4120),
  (0xAB5, 0x47554A4152415449204C455454455220564120),
  (0xAB6, 0x47554A4152415449204C45545445522053484120),
  (0xAB7, 0x47554A4152415449204C45545445522053534120),
  (0xAB8, 0x47554A4152415449204C455454455220534120),
  (0xAB9, 0x47554A4152415449204C455454455220484120),
  (0xABC, 0x47554A4152415449205349474E204E554B544120),
  (0xABD, 0x47554A4152415449205349474E20415641475241484120),
  (0xABE, 0x47554A415241544920564F57454C205349474E20414120),
  (0xABF, 0x47554A415241544920564F57454C205349474E204920),
  (0xAC0, 0x47554A415241544920564F57454C205349474E20494920),
  (0xAC1, 0x47554A415241544920564F57454C205349474E205520),
  (0xAC2, 0x47554A415241544920564F57454C205349474E20555520),
  (0xAC3, 0x47554A415241544920564F57454C205349474E20564F43414C4943205220),
  (0xAC4, 0x47554A415241544920564F57454C205349474E20564F43414C494320525220),
  (0xAC5, 0x47554A415241544920564F57454C205349474E2043414E445241204520),
  (0xAC7, 0x47554A415241544920564F57454C205349474E204520),
  (0xAC8, 0x47554A415241544920564F57454C205349474E20414920),
  (0xAC9, 0x47554A415241544920564F57454C205349474E2043414E445241204F20),
  (0xACB, 0x47554A415241544920564F57454C205349474E204F20),
  (0xACC, 0x47554A415241544920564F57454C205349474E20415520),
  (0xACD, 0x47554A4152415449205349474E20564952414D4120),
  (0xAD0, 0x47554A4152415449204F4D20),
  (0xAE0, 0x47554A4152415449204C455454455220564F43414C494320525220),
  (0xAE1, 0x47554A4152415449204C455454455220564F43414C4943204C4C20),
  (0xAE2, 0x47554A415241544920564F57454C205349474E20564F43414C4943204C20),
  (0xAE3, 0x47554A415241544920564F57454C205349474E20564F43414C4943204C4C20),
  (0xAE6, 0x47554A4152415449204449474954205A45524F20),
  (0xAE7, 0x47554A4152415449204449474954204F4E4520),
  (0xAE8, 0x47554A41524154492044494749542054574F20),
  (0xAE9, 0x47554A415241544920444947495420544852454520),
  (0xAEA, 0x47554A415241544920444947495420464F555220),
  (0xAEB, 0x47554A4152415449204449474954204649564520),
  (0xAEC, 0x47554A41524154492044494749542053495820),
  (0xAED, 0x47554A415241544920444947495420534556454E20),
  (0xAEE, 0x47554A415241544920444947495420454947485420),
  (0xAEF, 0x47554A4152415449204449474954204E494E4520),
  (0xAF0, 0x47554A415241544920414242524556494154494F4E205349474E20),
  (0xAF1, 0x47554A4152415449205255504545205349474E20),
  (0xAF9, 0x47554A4152415449204C4554544552205A484120),
  (0xAFA, 0x47554A4152415449205349474E2053554B554E20),
  (0xAFB, 0x47554A4152415449205349474E2053484144444120),
  (0xAFC, 0x47554A4152415449205349474E204D414444414820),
  (0xAFD, 0x47554A4152415449205349474E2054485245452D444F54204E554B54412041424F564520),
  (0xAFE, 0x47554A4152415449205349474E20434952434C45204E554B54412041424F564520),
  (0xAFF, 0x47554A4152415449205349474E2054574F2D434952434C45204E554B54412041424F564520),
  (0xB01, 0x4F52495941205349474E2043414E44524142494E445520),
  (0xB02, 0x4F52495941205349474E20414E55535641524120),
  (0xB03, 0x4F52495941205349474E205649534152474120),
  (0xB05, 0x4F52495941204C4554544552204120),
  (0xB06, 0x4F52495941204C455454455220414120),
  (0xB07, 0x4F52495941204C4554544552204920),
  (0xB08, 0x4F52495941204C455454455220494920),
  (0xB09, 0x4F52495941204C4554544552205520),
  (0xB0A, 0x4F52495941204C455454455220555520),
  (0xB0B, 0x4F52495941204C455454455220564F43414C4943205220)]
def names_39 : List (Nat × Nat) := [
  (0xB0C, 0x4F52495941204C455454455220564F43414C4943204C20),
  (0xB0F, 0x4F52495941204C4554544552204520),
  (0xB10, 0x4F52495941204C455454455220414920),
  (0xB13, 0x4F52495941204C4554544552204F20),
  (0xB14, 0x4F52495941204C455454455220415520),
  (0xB15, 0x4F52495941204C4554544552204B4120),
  (0xB16, 0x4F52495941204C4554544552204B484120),
  (0xB17, 0x4F52495941204C455454455220474120),
  (0xB18, 0x4F52495941204C45545445522047484120),
  (0xB19, 0x4F52495941204C4554544552204E474120),
  (0xB1A, 0x4F52495941204C455454455220434120),
  (0xB1B, 0x4F52495941204C45545445522043484120),
  (0xB1C, 0x4F52495941204C4554544552204A4120),
  (0xB1D, 0x4F52495941204C4554544552204A484120),
  (0xB1E, 0x4F52495941204C4554544552204E594120),
  (0xB1F, 0x4F52495941204C45545445522054544120),
  (0xB20, 0x4F52495941204C4554544552205454484120),
  (0xB21, 0x4F52495941204C45545445522044444120),
  (0xB22, 0x4F52495941204C4554544552204444484120),
  (0xB23, 0x4F52495941204C4554544552204E4E4120),
  (0xB24, 0x4F52495941204C455454455220544120),
  (0xB25, 0x4F52495941204C45545445522054484120),
  (0xB26, 0x4F52495941204C455454455220444120),
  (0xB27, 0x4F52495941204C45545445522044484120),
  (0xB28, 0x4F52495941204C4554544552204E4120),
  (0xB2A, 0x4F52495941204C455454455220504120),
  (0xB2B, 0x4F52495941204C45545445522050484120),
  (0xB2C, 0x4F52495941204C455454455220424120),
  (0xB2D, 0x4F52495941204C45545445522042484120),
  (0xB2E, 0x4F52495941204C4554544552204D4120),
  (0xB2F, 0x4F52495941204C455454455220594120),
  (0xB30, 0x4F52495941204C455454455220524120),
  (0xB32, 0x4F52495941204C4554544552204C4120),
  (0xB33, 0x4F52495941204C4554544552204C4C4120),
  (0xB35, 0x4F52495941204C455454455220564120),
  (0xB36, 0x4F52495941204C45545445522053484120),
  (0xB37, 0x4F52495941204C45545445522053534120),
  (0xB38, 0x4F52495941204C455454455220534120),
  (0xB39, 0x4F52495941204C455454455220484120),
  (0xB3C, 0x4F52495941205349474E204E554B544120),
  (0xB3D, 0x4F52495941205349474E20415641475241484120),
  (0xB3E, 0x4F5249594120564F57454C205349474E20414120),
  (0xB3F, 0x4F5249594120564F57454C205349474E204920),
  (0xB40, 0x4F5249594120564F57454C205349474E20494920),
  (0xB41, 0x4F5249594120564F57454C205349474E205520),
  (0xB42, 0x4F5249594120564F57454C205349474E20555520),
  (0xB43, 0x4F5249594120564F57454C205349474E20564F43414C4943205220),
  (0xB44, 0x4F5249594120564F57454C205349474E20564F43414C494320525220),
  (0xB47, 0x4F5249594120564F57454C205349474E204520),
  (0xB48, 0x4F5249594120564F57454C205349474E20414920),
  (0xB4B, 0x4F5249594120564F57454C205349474E204F20),
  (0xB4C, 0x4F5249594120564F57454C205349474E20415520),
  (0xB4D, 0x4F52495941205349474E20564952414D4120),
  (0xB56, 0x4F52495941204149204C454E475448204D41524B20),
  (0xB57, 0x4F52495941204155204C454E475448204D41524B20),
  (0xB5C, 0x4F52495941204C45545445522052524120),
  (0xB5D, 0x4F52495941204C45545445522052484120),
  (0xB5F, 0x4F52495941204C45545445522059594120),
  (0xB60, 0x4F52495941204C455454455220564F43414C494320525220),
  (0xB61, 0x4F52495941204C455454455220564F43414C4943204C4C20),
  (0xB62, 0x4F5249594120564F57454C205349474E20564F43414C4943204C20),
  (0xB63, 0x4F5249594120564F57454C205349474E20564F43414C4943204C4C20),
  (0xB66, 0x4F52495941204449474954205A45524F20),
  (0xB67, 0x4F52495941204449474954204F4E4520)]
def names_40 : List (Nat × Nat) := [
  (0xB68, 0x4F524959412044494749542054574F20),
  (0xB69, 0x4F5249594120444947495420544852454520),
  (0xB6A, 0x4F5249594120444947495420464F555220),
  (0xB6B, 0x4F52495941204449474954204649564520),
  (0xB6C, 0x4F524959412044494749542053495820),
  (0xB6D, 0x4F5249594120444947495420534556454E20),
  (0xB6E, 0x4F5249594120444947495420454947485420),
  (0xB6F, 0x4F52495941204449474954204E494E4520),
  (0xB70, 0x4F524959412049535348415220),
  (0xB71, 0x4F52495941204C455454455220574120),
  (0xB72, 0x4F52495941204652414354494F4E204F4E45205155415254455220),
  (0xB73, 0x4F52495941204652414354494F4E204F4E452048414C4620),
  (0xB74, 0x4F52495941204652414354494F4E20544852454520515541525445525320),
  (0xB75, 0x4F52495941204652414354494F4E204F4E45205349585445454E544820),
  (0xB76, 0x4F52495941204652414354494F4E204F4E452045494748544820),
  (0xB77, 0x4F52495941204652414354494F4E205448524545205349585445454E54485320),
  (0xB82, 0x54414D494C205349474E20414E55535641524120),
  (0xB83, 0x54414D494C205349474E205649534152474120),
  (0xB85, 0x54414D494C204C4554544552204120),
  (0xB86, 0x54414D494C204C455454455220414120),
  (0xB87, 0x54414D494C204C4554544552204920),
  (0xB88, 0x54414D494C204C455454455220494920),
  (0xB89, 0x54414D494C204C4554544552205520),
  (0xB8A, 0x54414D494C204C455454455220555520),
  (0xB8E, 0x54414D494C204C4554544552204520),
  (0xB8F, 0x54414D494C204C455454455220454520),
  (0xB90, 0x54414D494C204C455454455220414920),
  (0xB92, 0x54414D494C204C4554544552204F20),
  (0xB93, 0x54414D494C204C4554544552204F4F20),
  (0xB94, 0x54414D494C204C455454455220415520),
  (0xB95, 0x54414D494C204C4554544552204B4120),
  (0xB99, 0x54414D494C204C4554544552204E474120),
  (0xB9A, 0x54414D494C204C455454455220434120),
  (0xB9C, 0x54414D494C204C4554544552204A4120),
  (0xB9E, 0x54414D494C204C4554544552204E594120),
  (0xB9F, 0x54414D494C204C45545445522054544120),
  (0xBA3, 0x54414D494C204C4554544552204E4E4120),
  (0xBA4, 0x54414D494C204C455454455220544120),
  (0xBA8, 0x54414D494C204C4554544552204E4120),
  (0xBA9, 0x54414D494C204C4554544552204E4E4E4120),
  (0xBAA, 0x54414D494C204C455454455220504120),
  (0xBAE, 0x54414D494C204C4554544552204D4120),
  (0xBAF, 0x54414D494C204C455454455220594120),
  (0xBB0, 0x54414D494C204C455454455220524120),
  (0xBB1, 0x54414D494C204C45545445522052524120),
  (0xBB2, 0x54414D494C204C4554544552204C4120),
  (0xBB3, 0x54414D494C204C4554544552204C4C4120),
  (0xBB4, 0x54414D494C204C4554544552204C4C4C4120),
  (0xBB5, 0x54414D494C204C455454455220564120),
  (0xBB6, 0x54414D494C204C45545445522053484120),
  (0xBB7, 0x54414D494C204C45545445522053534120),
  (0xBB8, 0x54414D494C204C455454455220534120),
  (0xBB9, 0x54414D494C204C455454455220484120),
  (0xBBE, 0x54414D494C20564F57454C205349474E20414120),
  (0xBBF, 0x54414D494C20564F57454C205349474E204920),
  (0xBC0, 0x54414D494C20564F57454C205349474E20494920),
  (0xBC1, 0x54414D494C20564F57454C205349474E205520),
  (0xBC2, 0x54414D494C20564F57454C205349474E20555520),
  (0xBC6, 0x54414D494C20564F57454C205349474E204520),
  (0xBC7, 0x54414D494C20564F57454C205349474E20454520),
  (0xBC8, 0x54414D494C20564F57454C205349474E20414920),
  (0xBCA, 0x54414D494C20564F57454C205349474E204F20),
  (0xBCB, 0x54414D494C20564F57454C205349474E204F4F20),
  (0xBCC, 0x54414D494C20564F57454C205349474E20415520)]
def names_41 : List (Nat × Nat) := [
  (0xBCD, 0x54414D494C205349474E20564952414D4120),
  (0xBD0, 0x54414D494C204F4D20),
  (0xBD7, 0x54414D494C204155204C454E475448204D41524B20),
  (0xBE6, 0x54414D494C204449474954205A45524F20),
  (0xBE7, 0x54414D494C204449474954204F4E4520),
  (0xBE8, 0x54414D494C2044494749542054574F20),
  (0xBE9, 0x54414D494C20444947495420544852454520),
  (0xBEA, 0x54414D494C20444947495420464F555220),
  (0xBEB, 0x54414D494C204449474954204649564520),
  (0xBEC, 0x54414D494C2044494749542053495820),
  (0xBED, 0x54414D494C20444947495420534556454E20),
  (0xBEE, 0x54414D494C20444947495420454947485420),
  (0xBEF, 0x54414D494C204449474954204E494E4520),
  (0xBF0, 0x54414D494C204E554D4245522054454E20),
  (0xBF1, 0x54414D494C204E554D424552204F4E452048554E4452454420),
  (0xBF2, 0x54414D494C204E554D424552204F4E452054484F5553414E4420),
  (0xBF3, 0x54414D494C20444159205349474E20),
  (0xBF4, 0x54414D494C204D4F4E5448205349474E20),
  (0xBF5, 0x54414D494C2059454152205349474E20),
  (0xBF6, 0x54414D494C204445424954205349474E20),
  (0xBF7, 0x54414D494C20435245444954205349474E20),
  (0xBF8, 0x54414D494C2041532041424F5645205349474E20),
  (0xBF9, 0x54414D494C205255504545205349474E20),
  (0xBFA, 0x54414D494C204E554D424552205349474E20),
  (0xC00, 0x54454C554755205349474E20434F4D42494E494E472043414E44524142494E44552041424F564520),
  (0xC01, 0x54454C554755205349474E2043414E44524142494E445520),
  (0xC02, 0x54454C554755205349474E20414E55535641524120),
  (0xC03, 0x54454C554755205349474E205649534152474120),
  (0xC05, 0x54454C554755204C4554544552204120),
  (0xC06, 0x54454C554755204C455454455220414120),
  (0xC07, 0x54454C554755204C4554544552204920),
  (0xC08, 0x54454C554755204C455454455220494920),
  (0xC09, 0x54454C554755204C4554544552205520),
  (0xC0A, 0x54454C554755204C455454455220555520),
  (0xC0B, 0x54454C554755204C455454455220564F43414C4943205220),
  (0xC0C, 0x54454C554755204C455454455220564F43414C4943204C20),
  (0xC0E, 0x54454C554755204C4554544552204520),
  (0xC0F, 0x54454C554755204C455454455220454520),
  (0xC10, 0x54454C554755204C455454455220414920),
  (0xC12, 0x54454C554755204C4554544552204F20),
  (0xC13, 0x54454C554755204C4554544552204F4F20),
  (0xC14, 0x54454C554755204C455454455220415520),
  (0xC15, 0x54454C554755204C4554544552204B4120),
  (0xC16, 0x54454C554755204C4554544552204B484120),
  (0xC17, 0x54454C554755204C455454455220474120),
  (0xC18, 0x54454C554755204C45545445522047484120),
  (0xC19, 0x54454C554755204C4554544552204E474120),
  (0xC1A, 0x54454C554755204C455454455220434120),
  (0xC1B, 0x54454C554755204C45545445522043484120),
  (0xC1C, 0x54454C554755204C4554544552204A4120),
  (0xC1D, 0x54454C554755204C4554544552204A484120),
  (0xC1E, 0x54454C554755204C4554544552204E594120),
  (0xC1F, 0x54454C554755204C45545445522054544120),
  (0xC20, 0x54454C554755204C4554544552205454484120),
  (0xC21, 0x54454C554755204C45545445522044444120),
  (0xC22, 0x54454C554755204C4554544552204444484120),
  (0xC23, 0x54454C554755204C4554544552204E4E4120),
  (0xC24, 0x54454C554755204C455454455220544120),
  (0xC25, 0x54454C554755204C45545445522054484120),
  (0xC26, 0x54454C554755204C455454455220444120),
  (0xC27, 0x54454C554755204C45545445522044484120),
  (0xC28, 0x54454C554755204C4554544552204E4120),
  (0xC2A, 0x54454C554755204C455454455220504120),
  (0xC2B, 0x54454C554755204C45545445522050484120)]
def names_42 : List (Nat × Nat) := [
  (0xC2C, 0x54454C554755204C455454455220424120),
  (0xC2D, 0x54454C554755204C45545445522042484120),
  (0xC2E, 0x54454C554755204C4554544552204D4120),
  (0xC2F, 0x54454C554755204C455454455220594120),
  (0xC30, 0x54454C554755204C455454455220524120),
  (0xC31, 0x54454C554755204C45545445522052524120),
  (0xC32, 0x54454C554755204C4554544552204C4120),
  (0xC33, 0x54454C554755204C4554544552204C4C4120),
  (0xC34, 0x54454C554755204C4554544552204C4C4C4120),
  (0xC35, 0x54454C554755204C455454455220564120),
  (0xC36, 0x54454C554755204C45545445522053484120),
  (0xC37, 0x54454C554755204C45545445522053534120),
  (0xC38, 0x54454C554755204C455454455220534120),
  (0xC39, 0x54454C554755204C455454455220484120),
  (0xC3D, 0x54454C554755205349474E20415641475241484120),
  (0xC3E, 0x54454C55475520564F57454C205349474E20414120),
  (0xC3F, 0x54454C55475520564F57454C205349474E204920),
  (0xC40, 0x54454C55475520564F57454C205349474E20494920),
  (0xC41, 0x54454C55475520564F57454C205349474E205520),
  (0xC42, 0x54454C55475520564F57454C205349474E20555520),
  (0xC43, 0x54454C55475520564F57454C205349474E20564F43414C4943205220),
  (0xC44, 0x54454C55475520564F57454C205349474E20564F43414C494320525220),
  (0xC46, 0x54454C55475520564F57454C205349474E204520),
  (0xC47, 0x54454C55475520564F57454C205349474E20454520),
  (0xC48, 0x54454C55475520564F57454C205349474E20414920),
  (0xC4A, 0x54454C55475520564F57454C205349474E204F20),
  (0xC4B, 0x54454C55475520564F57454C205349474E204F4F20),
  (0xC4C, 0x54454C55475520564F57454C205349474E20415520),
  (0xC4D, 0x54454C554755205349474E20564952414D4120),
  (0xC55, 0x54454C554755204C454E475448204D41524B20),
  (0xC56, 0x54454C554755204149204C454E475448204D41524B20),
  (0xC58, 0x54454C554755204C45545445522054534120),
  (0xC59, 0x54454C554755204C455454455220445A4120),
  (0xC5A, 0x54454C554755204C4554544552205252524120),
  (0xC60, 0x54454C554755204C455454455220564F43414C494320525220),
  (0xC61, 0x54454C554755204C455454455220564F43414C4943204C4C20),
  (0xC62, 0x54454C55475520564F57454C205349474E20564F43414C4943204C20),
  (0xC63, 0x54454C55475520564F57454C205349474E20564F43414C4943204C4C20),
  (0xC66, 0x54454C554755204449474954205A45524F20),
  (0xC67, 0x54454C554755204449474954204F4E4520),
  (0xC68, 0x54454C5547552044494749542054574F20),
  (0xC69, 0x54454C55475520444947495420544852454520),
  (0xC6A, 0x54454C55475520444947495420464F555220),
  (0xC6B, 0x54454C554755204449474954204649564520),
  (0xC6C, 0x54454C5547552044494749542053495820),
  (0xC6D, 0x54454C55475520444947495420534556454E20),
  (0xC6E, 0x54454C55475520444947495420454947485420),
  (0xC6F, 0x54454C554755204449474954204E494E4520),
  (0xC78, 0x54454C554755204652414354494F4E204449474954205A45524F20464F52204F444420504F57455253204F4620464F555220),
  (0xC79, 0x54454C554755204652414354494F4E204449474954204F4E4520464F52204F444420504F57455253204F4620464F555220),
  (0xC7A, 0x54454C554755204652414354494F4E2044494749542054574F20464F52204F444420504F57455253204F4620464F555220),
  (0xC7B, 0x54454C554755204652414354494F4E20444947495420544852454520464F52204F444420504F57455253204F4620464F555220),
  (0xC7C, 0x54454C554755204652414354494F4E204449474954204F4E4520464F52204556454E20504F57455253204F4620464F555220),
  (0xC7D, 0x54454C554755204652414354494F4E2044494749542054574F20464F52204556454E20504F57455253204F4620464F555220),
  (0xC7E, 0x54454C554755204652414354494F4E20444947495420544852454520464F52204556454E20504F57455253204F4620464F555220),
  (0xC7F, 0x54454C554755205349474E205455554D5520),
  (0xC80, 0x4B414E4E414441205349474E2053504143494E472043414E44524142494E445520),
  (0xC81, 0x4B414E4E414441205349474E2043414E44524142494E445520),
  (0xC82, 0x4B414E4E414441205349474E20414E55535641524120),
  (0xC83, 0x4B414E4E414441205349474E205649534152474120),
  (0xC85, 0x4B414E4E414441204C4554544552204120),
  (0xC86, 0x4B414E4E414441204C455454455220414120),
  (0xC87, 0x4B414E4E414441204C4554544552204920),
  (0xC88, 0x4B414E4E414441204C455454455220494920)]
def names_43 : List (Nat × Nat) := [
  (0xC89, 0x4B414E4E414441204C4554544552205520),
  (0xC8A, 0x4B414E4E414441204C455454455220555520),
  (0xC8B, 0x4B414E4E414441204C455454455220564F43414C4943205220),
  (0xC8C, 0x4B414E4E414441204C455454455220564F43414C4943204C20),
  (0xC8E, 0x4B414E4E414441204C4554544552204520),
  (0xC8F, 0x4B414E4E414441204C455454455220454520),
  (0xC90, 0x4B414E4E414441204C455454455220414920),
  (0xC92, 0x4B414E4E414441204C4554544552204F20),
  (0xC93, 0x4B414E4E414441204C4554544552204F4F20),
  (0xC94, 0x4B414E4E414441204C455454455220415520),
  (0xC95, 0x4B414E4E414441204C4554544552204B4120),
  (0xC96, 0x4B414E4E414441204C4554544552204B484120),
  (0xC97, 0x4B414E4E414441204C455454455220474120),
  (0xC98, 0x4B414E4E414441204C45545445522047484120),
  (0xC99, 0x4B414E4E414441204C4554544552204E474120),
  (0xC9A, 0x4B414E4E414441204C455454455220434120),
  (0xC9B, 0x4B414E4E414441204C45545445522043484120),
  (0xC9C, 0x4B414E4E414441204C4554544552204A4120),
  (0xC9D, 0x4B414E4E414441204C4554544552204A484120),
  (0xC9E, 0x4B414E4E414441204C4554544552204E594120),
  (0xC9F, 0x4B414E4E414441204C45545445522054544120),
  (0xCA0, 0x4B414E4E414441204C4554544552205454484120),
  (0xCA1, 0x4B414E4E414441204C45545445522044444120),
  (0xCA2, 0x4B414E4E414441204C4554544552204444484120),
  (0xCA3, 0x4B414E4E414441204C4554544552204E4E4120),
  (0xCA4, 0x4B414E4E414441204C455454455220544120),
  (0xCA5, 0x4B414E4E414441204C45545445522054484120),
  (0xCA6, 0x4B414E4E414441204C455454455220444120),
  (0xCA7, 0x4B414E4E414441204C45545445522044484120),
  (0xCA8, 0x4B414E4E414441204C4554544552204E4120),
  (0xCAA, 0x4B414E4E414441204C455454455220504120),
  (0xCAB, 0x4B414E4E414441204C45545445522050484120),
  (0xCAC, 0x4B414E4E414441204C455454455220424120),
  (0xCAD, 0x4B414E4E414441204C45545445522042484120),
  (0xCAE, 0x4B414E4E414441204C4554544552204D4120),
  (0xCAF, 0x4B414E4E414441204C455454455220594120),
  (0xCB0, 0x4B414E4E414441204C455454455220524120),
  (0xCB1, 0x4B414E4E414441204C45545445522052524120),
  (0xCB2, 0x4B414E4E414441204C4554544552204C4120),
  (0xCB3, 0x4B414E4E414441204C4554544552204C4C4120),
  (0xCB5, 0x4B414E4E414441204C455454455220564120),
  (0xCB6, 0x4B414E4E414441204C45545445522053484120),
  (0xCB7, 0x4B414E4E414441204C45545445522053534120),
  (0xCB8, 0x4B414E4E414441204C455454455220534120),
  (0xCB9, 0x4B414E4E414441204C455454455220484120),
  (0xCBC, 0x4B414E4E414441205349474E204E554B544120),
  (0xCBD, 0x4B414E4E414441205349474E20415641475241484120),
  (0xCBE, 0x4B414E4E41444120564F57454C205349474E20414120),
  (0xCBF, 0x4B414E4E41444120564F57454C205349474E204920),
  (0xCC0, 0x4B414E4E41444120564F57454C205349474E20494920),
  (0xCC1, 0x4B414E4E41444120564F57454C205349474E205520),
  (0xCC2, 0x4B414E4E41444120564F57454C205349474E20555520),
  (0xCC3, 0x4B414E4E41444120564F57454C205349474E20564F43414C4943205220),
  (0xCC4, 0x4B414E4E41444120564F57454C205349474E20564F43414C494320525220),
  (0xCC6, 0x4B414E4E41444120564F57454C205349474E204520),
  (0xCC7, 0x4B414E4E41444120564F57454C205349474E20454520),
  (0xCC8, 0x4B414E4E41444120564F57454C205349474E20414920),
  (0xCCA, 0x4B414E4E41444120564F57454C205349474E204F20),
  (0xCCB, 0x4B414E4E41444120564F57454C205349474E204F4F20),
  (0xCCC, 0x4B414E4E41444120564F57454C205349474E20415520),
  (0xCCD, 0x4B414E4E414441205349474E20564952414D4120),
  (0xCD5, 0x4B414E4E414441204C454E475448204D41524B20),
  (0xCD6, 0x4B414E4E414441204149204C454E475448204D41524B20),
  (0xCDE, 0x4B414E4E414441204C455454455220464120)]
def names_44 : List (Nat × Nat) := [
  (0xCE0, 0x4B414E4E414441204C455454455220564F43414C494320525220),
  (0xCE1, 0x4B414E4E414441204C455454455220564F43414C4943204C4C20),
  (0xCE2, 0x4B414E4E41444120564F57454C205349474E20564F43414C4943204C20),
  (0xCE3, 0x4B414E4E41444120564F57454C205349474E20564F43414C4943204C4C20),
  (0xCE6, 0x4B414E4E414441204449474954205A45524F20),
  (0xCE7, 0x4B414E4E414441204449474954204F4E4520),
  (0xCE8, 0x4B414E4E4144412044494749542054574F20),
  (0xCE9, 0x4B414E4E41444120444947495420544852454520),
  (0xCEA, 0x4B414E4E41444120444947495420464F555220),
  (0xCEB, 0x4B414E4E414441204449474954204649564520),
  (0xCEC, 0x4B414E4E4144412044494749542053495820),
  (0xCED, 0x4B414E4E41444120444947495420534556454E20),
  (0xCEE, 0x4B414E4E41444120444947495420454947485420),
  (0xCEF, 0x4B414E4E414441204449474954204E494E4520),
  (0xCF1, 0x4B414E4E414441205349474E204A494856414D554C49594120),
  (0xCF2, 0x4B414E4E414441205349474E2055504144484D414E49594120),
  (0xD00, 0x4D414C4159414C414D205349474E20434F4D42494E494E4720414E5553564152412041424F564520),
  (0xD01, 0x4D414C4159414C414D205349474E2043414E44524142494E445520),
  (0xD02, 0x4D414C4159414C414D205349474E20414E55535641524120),
  (0xD03, 0x4D414C4159414C414D205349474E205649534152474120),
  (0xD05, 0x4D414C4159414C414D204C4554544552204120),
  (0xD06, 0x4D414C4159414C414D204C455454455220414120),
  (0xD07, 0x4D414C4159414C414D204C4554544552204920),
  (0xD08, 0x4D414C4159414C414D204C455454455220494920),
  (0xD09, 0x4D414C4159414C414D204C4554544552205520),
  (0xD0A, 0x4D414C4159414C414D204C455454455220555520),
  (0xD0B, 0x4D414C4159414C414D204C455454455220564F43414C4943205220),
  (0xD0C, 0x4D414C4159414C414D204C455454455220564F43414C4943204C20),
  (0xD0E, 0x4D414C4159414C414D204C4554544552204520),
  (0xD0F, 0x4D414C4159414C414D204C455454455220454520),
  (0xD10, 0x4D414C4159414C414D204C455454455220414920),
  (0xD12, 0x4D414C4159414C414D204C4554544552204F20),
  (0xD13, 0x4D414C4159414C414D204C4554544552204F4F20),
  (0xD14, 0x4D414C4159414C414D204C455454455220415520),
  (0xD15, 0x4D414C4159414C414D204C4554544552204B4120),
  (0xD16, 0x4D414C4159414C414D204C4554544552204B484120),
  (0xD17, 0x4D414C4159414C414D204C455454455220474120),
  (0xD18, 0x4D414C4159414C414D204C45545445522047484120),
  (0xD19, 0x4D414C4159414C414D204C4554544552204E474120),
  (0xD1A, 0x4D414C4159414C414D204C455454455220434120),
  (0xD1B, 0x4D414C4159414C414D204C45545445522043484120),
  (0xD1C, 0x4D414C4159414C414D204C4554544552204A4120),
  (0xD1D, 0x4D414C4159414C414D204C4554544552204A484120),
  (0xD1E, 0x4D414C4159414C414D204C4554544552204E594120),
  (0xD1F, 0x4D414C4159414C414D204C45545445522054544120),
  (0xD20, 0x4D414C4159414C414D204C4554544552205454484120),
  (0xD21, 0x4D414C4159414C414D204C45545445522044444120),
  (0xD22, 0x4D414C4159414C414D204C4554544552204444484120),
  (0xD23, 0x4D414C4159414C414D204C4554544552204E4E4120),
  (0xD24, 0x4D414C4159414C414D204C455454455220544120),
  (0xD25, 0x4D414C4159414C414D204C45545445522054484120),
  (0xD26, 0x4D414C4159414C414D204C455454455220444120),
  (0xD27, 0x4D414C4159414C414D204C45545445522044484120),
  (0xD28, 0x4D414C4159414C414D204C4554544552204E4120),
  (0xD29, 0x4D414C4159414C414D204C4554544552204E4E4E4120),
  (0xD2A, 0x4D414C4159414C414D204C455454455220504120),
  (0xD2B, 0x4D414C4159414C414D204C45545445522050484120),
  (0xD2C, 0x4D414C4159414C414D204C455454455220424120),
  (0xD2D, 0x4D414C4159414C414D204C45545445522042484120),
  (0xD2E, 0x4D414C4159414C414D204C4554544552204D4120),
  (0xD2F, 0x4D414C4159414C414D204C455454455220594120),
  (0xD30, 0x4D414C4159414C414D204C455454455220524120),
  (0xD31, 0x4D414C4159414C414D204C45545445522052524120),
  (0xD32, 0x4D414C4159414C414D204C4554544552204C4120)]
def names_45 : List (Nat × Nat) := [
  (0xD33, 0x4D414C4159414C414D204C4554544552204C4C4120),
  (0xD34, 0x4D414C4159414C414D204C4554544552204C4C4C4120),
  (0xD35, 0x4D414C4159414C414D204C455454455220564120),
  (0xD36, 0x4D414C4159414C414D204C45545445522053484120),
  (0xD37, 0x4D414C4159414C414D204C45545445522053534120),
  (0xD38, 0x4D414C4159414C414D204C455454455220534120),
  (0xD39, 0x4D414C4159414C414D204C455454455220484120),
  (0xD3A, 0x4D414C4159414C414D204C4554544552205454544120),
  (0xD3B, 0x4D414C4159414C414D205349474E20564552544943414C2042415220564952414D4120),
  (0xD3C, 0x4D414C4159414C414D205349474E2043495243554C415220564952414D4120),
  (0xD3D, 0x4D414C4159414C414D205349474E20415641475241484120),
  (0xD3E, 0x4D414C4159414C414D20564F57454C205349474E20414120),
  (0xD3F, 0x4D414C4159414C414D20564F57454C205349474E204920),
  (0xD40, 0x4D414C4159414C414D20564F57454C205349474E20494920),
  (0xD41, 0x4D414C4159414C414D20564F57454C205349474E205520),
  (0xD42, 0x4D414C4159414C414D20564F57454C205349474E20555520),
  (0xD43, 0x4D414C4159414C414D20564F57454C205349474E20564F43414C4943205220),
  (0xD44, 0x4D414C4159414C414D20564F57454C205349474E20564F43414C494320525220),
  (0xD46, 0x4D414C4159414C414D20564F57454C205349474E204520),
  (0xD47, 0x4D414C4159414C414D20564F57454C205349474E20454520),
  (0xD48, 0x4D414C4159414C414D20564F57454C205349474E20414920),
  (0xD4A, 0x4D414C4159414C414D20564F57454C205349474E204F20),
  (0xD4B, 0x4D414C4159414C414D20564F57454C205349474E204F4F20),
  (0xD4C, 0x4D414C4159414C414D20564F57454C205349474E20415520),
  (0xD4D, 0x4D414C4159414C414D205349474E20564952414D4120),
  (0xD4E, 0x4D414C4159414C414D204C455454455220444F54205245504820),
  (0xD4F, 0x4D414C4159414C414D205349474E205041524120),
  (0xD54, 0x4D414C4159414C414D204C4554544552204348494C4C55204D20),
  (0xD55, 0x4D414C4159414C414D204C4554544552204348494C4C55205920),
  (0xD56, 0x4D414C4159414C414D204C4554544552204348494C4C55204C4C4C20),
  (0xD57, 0x4D414C4159414C414D204155204C454E475448204D41524B20),
  (0xD58, 0x4D414C4159414C414D204652414354494F4E204F4E45204F4E452D48554E445245442D414E442D534958544945544820),
  (0xD59, 0x4D414C4159414C414D204652414354494F4E204F4E4520464F52544945544820),
  (0xD5A, 0x4D414C4159414C414D204652414354494F4E205448524545204549474854494554485320),
  (0xD5B, 0x4D414C4159414C414D204652414354494F4E204F4E45205457454E544945544820),
  (0xD5C, 0x4D414C4159414C414D204652414354494F4E204F4E452054454E544820),
  (0xD5D, 0x4D414C4159414C414D204652414354494F4E205448524545205457454E54494554485320),
  (0xD5E, 0x4D414C4159414C414D204652414354494F4E204F4E4520464946544820),
  (0xD5F, 0x4D414C4159414C414D204C4554544552204152434841494320494920),
  (0xD60, 0x4D414C4159414C414D204C455454455220564F43414C494320525220),
  (0xD61, 0x4D414C4159414C414D204C455454455220564F43414C4943204C4C20),
  (0xD62, 0x4D414C4159414C414D20564F57454C205349474E20564F43414C4943204C20),
  (0xD63, 0x4D414C4159414C414D20564F57454C205349474E20564F43414C4943204C4C20),
  (0xD66, 0x4D414C4159414C414D204449474954205A45524F20),
  (0xD67, 0x4D414C4159414C414D204449474954204F4E4520),
  (0xD68, 0x4D414C4159414C414D2044494749542054574F20),
  (0xD69, 0x4D414C4159414C414D20444947495420544852454520),
  (0xD6A, 0x4D414C4159414C414D20444947495420464F555220),
  (0xD6B, 0x4D414C4159414C414D204449474954204649564520),
  (0xD6C, 0x4D414C4159414C414D2044494749542053495820),
  (0xD6D, 0x4D414C4159414C414D20444947495420534556454E20),
  (0xD6E, 0x4D414C4159414C414D20444947495420454947485420),
  (0xD6F, 0x4D414C4159414C414D204449474954204E494E4520),
  (0xD70, 0x4D414C4159414C414D204E554D4245522054454E20),
  (0xD71, 0x4D414C4159414C414D204E554D424552204F4E452048554E4452454420),
  (0xD72, 0x4D414C4159414C414D204E554D424552204F4E452054484F5553414E4420),
  (0xD73, 0x4D414C4159414C414D204652414354494F4E204F4E45205155415254455220),
  (0xD74, 0x4D414C4159414C414D204652414354494F4E204F4E452048414C4620),
  (0xD75, 0x4D414C4159414C414D204652414354494F4E20544852454520515541525445525320),
  (0xD76, 0x4D414C4159414C414D204652414354494F4E204F4E45205349585445454E544820),
  (0xD77, 0x4D414C4159414C414D204652414354494F4E204F4E452045494748544820),
  (0xD78, 0x4D414C4159414C414D204652414354494F4E205448524545205349585445454E54485320),
  (0xD79, 0x4D414C4159414C414D2044415445204D41524B20),
  (0xD7A, 0x4D414C4159414C414D204C4554544552204348494C4C55204E4E20)]
def names_46 : List (Nat × Nat) := [
  (0xD7B, 0x4D414C4159414C414D204C4554544552204348494C4C55204E20),
  (0xD7C, 0x4D414C4159414C414D204C4554544552204348494C4C5520525220),
  (0xD7D, 0x4D414C4159414C414D204C4554544552204348494C4C55204C20),
  (0xD7E, 0x4D414C4159414C414D204C4554544552204348494C4C55204C4C20),
  (0xD7F, 0x4D414C4159414C414D204C4554544552204348494C4C55204B20),
  (0xD82, 0x53494E48414C41205349474E20414E555356415241594120),
  (0xD83, 0x53494E48414C41205349474E2056495341524741594120),
  (0xD85, 0x53494E48414C41204C4554544552204159414E4E4120),
  (0xD86, 0x53494E48414C41204C455454455220414159414E4E4120),
  (0xD87, 0x53494E48414C41204C455454455220414559414E4E4120),
  (0xD88, 0x53494E48414C41204C45545445522041454559414E4E4120),
  (0xD89, 0x53494E48414C41204C4554544552204959414E4E4120),
  (0xD8A, 0x53494E48414C41204C455454455220494959414E4E4120),
  (0xD8B, 0x53494E48414C41204C4554544552205559414E4E4120),
  (0xD8C, 0x53494E48414C41204C455454455220555559414E4E4120),
  (0xD8D, 0x53494E48414C41204C45545445522049525559414E4E4120),
  (0xD8E, 0x53494E48414C41204C4554544552204952555559414E4E4120),
  (0xD8F, 0x53494E48414C41204C455454455220494C5559414E4E4120),
  (0xD90, 0x53494E48414C41204C455454455220494C555559414E4E4120),
  (0xD91, 0x53494E48414C41204C4554544552204559414E4E4120),
  (0xD92, 0x53494E48414C41204C455454455220454559414E4E4120),
  (0xD93, 0x53494E48414C41204C455454455220414959414E4E4120),
  (0xD94, 0x53494E48414C41204C4554544552204F59414E4E4120),
  (0xD95, 0x53494E48414C41204C4554544552204F4F59414E4E4120),
  (0xD96, 0x53494E48414C41204C455454455220415559414E4E4120),
  (0xD9A, 0x53494E48414C41204C455454455220414C5041505241414E41204B4159414E4E4120),
  (0xD9B, 0x53494E48414C41204C4554544552204D41484141505241414E41204B4159414E4E4120),
  (0xD9C, 0x53494E48414C41204C455454455220414C5041505241414E4120474159414E4E4120),
  (0xD9D, 0x53494E48414C41204C4554544552204D41484141505241414E4120474159414E4E4120),
  (0xD9E, 0x53494E48414C41204C4554544552204B414E54414A41204E414153494B5941594120),
  (0xD9F, 0x53494E48414C41204C45545445522053414E59414B4120474159414E4E4120),
  (0xDA0, 0x53494E48414C41204C455454455220414C5041505241414E4120434159414E4E4120),
  (0xDA1, 0x53494E48414C41204C4554544552204D41484141505241414E4120434159414E4E4120),
  (0xDA2, 0x53494E48414C41204C455454455220414C5041505241414E41204A4159414E4E4120),
  (0xDA3, 0x53494E48414C41204C4554544552204D41484141505241414E41204A4159414E4E4120),
  (0xDA4, 0x53494E48414C41204C4554544552205441414C554A41204E414153494B5941594120),
  (0xDA5, 0x53494E48414C41204C4554544552205441414C554A412053414E594F4F4741204E41414B53494B5941594120),
  (0xDA6, 0x53494E48414C41204C45545445522053414E59414B41204A4159414E4E4120),
  (0xDA7, 0x53494E48414C41204C455454455220414C5041505241414E412054544159414E4E4120),
  (0xDA8, 0x53494E48414C41204C4554544552204D41484141505241414E412054544159414E4E4120),
  (0xDA9, 0x53494E48414C41204C455454455220414C5041505241414E412044444159414E4E4120),
  (0xDAA, 0x53494E48414C41204C4554544552204D41484141505241414E412044444159414E4E4120),
  (0xDAB, 0x53494E48414C41204C4554544552204D5555524448414A41204E4159414E4E4120),
  (0xDAC, 0x53494E48414C41204C45545445522053414E59414B412044444159414E4E4120),
  (0xDAD, 0x53494E48414C41204C455454455220414C5041505241414E4120544159414E4E4120),
  (0xDAE, 0x53494E48414C41204C4554544552204D41484141505241414E4120544159414E4E4120),
  (0xDAF, 0x53494E48414C41204C455454455220414C5041505241414E4120444159414E4E4120),
  (0xDB0, 0x53494E48414C41204C4554544552204D41484141505241414E4120444159414E4E4120),
  (0xDB1, 0x53494E48414C41204C45545445522044414E54414A41204E4159414E4E4120),
  (0xDB3, 0x53494E48414C41204C45545445522053414E59414B4120444159414E4E4120),
  (0xDB4, 0x53494E48414C41204C455454455220414C5041505241414E4120504159414E4E4120),
  (0xDB5, 0x53494E48414C41204C4554544552204D41484141505241414E4120504159414E4E4120),
  (0xDB6, 0x53494E48414C41204C455454455220414C5041505241414E4120424159414E4E4120),
  (0xDB7, 0x53494E48414C41204C4554544552204D41484141505241414E4120424159414E4E4120),
  (0xDB8, 0x53494E48414C41204C4554544552204D4159414E4E4120),
  (0xDB9, 0x53494E48414C41204C455454455220414D424120424159414E4E4120),
  (0xDBA, 0x53494E48414C41204C455454455220594159414E4E4120),
  (0xDBB, 0x53494E48414C41204C455454455220524159414E4E4120),
  (0xDBD, 0x53494E48414C41204C45545445522044414E54414A41204C4159414E4E4120),
  (0xDC0, 0x53494E48414C41204C455454455220564159414E4E4120),
  (0xDC1, 0x53494E48414C41204C4554544552205441414C554A4120534159414E4E4120),
  (0xDC2, 0x53494E48414C41204C4554544552204D5555524448414A4120534159414E4E4120),
  (0xDC3, 0x53494E48414C41204C45545445522044414E54414A4120534159414E4E4120),
  (0xDC4, 0x53494E48414C41204C455454455220484159414E4E4120)]
def names_47 : List (Nat × Nat) := [
  (0xDC5, 0x53494E48414C41204C4554544552204D5555524448414A41204C4159414E4E4120),
  (0xDC6, 0x53494E48414C41204C455454455220464159414E4E4120),
  (0xDCA, 0x53494E48414C41205349474E20414C2D4C414B554E4120),
  (0xDCF, 0x53494E48414C4120564F57454C205349474E2041454C412D50494C4C4120),
  (0xDD0, 0x53494E48414C4120564F57454C205349474E204B4554544920414544412D50494C4C4120),
  (0xDD1, 0x53494E48414C4120564F57454C205349474E204449474120414544412D50494C4C4120),
  (0xDD2, 0x53494E48414C4120564F57454C205349474E204B455454492049532D50494C4C4120),
  (0xDD3, 0x53494E48414C4120564F57454C205349474E20444947412049532D50494C4C4120),
  (0xDD4, 0x53494E48414C4120564F57454C205349474E204B45545449205041412D50494C4C4120),
  (0xDD6, 0x53494E48414C4120564F57454C205349474E2044494741205041412D50494C4C4120),
  (0xDD8, 0x53494E48414C4120564F57454C205349474E204741455454412D50494C4C4120),
  (0xDD9, 0x53494E48414C4120564F57454C205349474E204B4F4D4255564120),
  (0xDDA, 0x53494E48414C4120564F57454C205349474E2044494741204B4F4D4255564120),
  (0xDDB, 0x53494E48414C4120564F57454C205349474E204B4F4D42552044454B4120),
  (0xDDC, 0x53494E48414C4120564F57454C205349474E204B4F4D42555641204841412041454C412D50494C4C4120),
  (0xDDD, 0x53494E48414C4120564F57454C205349474E204B4F4D425556412048414120444947412041454C412D50494C4C4120),
  (0xDDE, 0x53494E48414C4120564F57454C205349474E204B4F4D425556412048414120474159414E554B4954544120),
  (0xDDF, 0x53494E48414C4120564F57454C205349474E20474159414E554B4954544120),
  (0xDE6, 0x53494E48414C41204C495448204449474954205A45524F20),
  (0xDE7, 0x53494E48414C41204C495448204449474954204F4E4520),
  (0xDE8, 0x53494E48414C41204C4954482044494749542054574F20),
  (0xDE9, 0x53494E48414C41204C49544820444947495420544852454520),
  (0xDEA, 0x53494E48414C41204C49544820444947495420464F555220),
  (0xDEB, 0x53494E48414C41204C495448204449474954204649564520),
  (0xDEC, 0x53494E48414C41204C4954482044494749542053495820),
  (0xDED, 0x53494E48414C41204C49544820444947495420534556454E20),
  (0xDEE, 0x53494E48414C41204C49544820444947495420454947485420),
  (0xDEF, 0x53494E48414C41204C495448204449474954204E494E4520),
  (0xDF2, 0x53494E48414C4120564F57454C205349474E2044494741204741455454412D50494C4C4120),
  (0xDF3, 0x53494E48414C4120564F57454C205349474E204449474120474159414E554B4954544120),
  (0xDF4, 0x53494E48414C412050554E4354554154494F4E204B554E4444414C49594120),
  (0xE01, 0x5448414920434841524143544552204B4F204B414920),
  (0xE02, 0x5448414920434841524143544552204B484F204B48414920),
  (0xE03, 0x5448414920434841524143544552204B484F204B4855415420),
  (0xE04, 0x5448414920434841524143544552204B484F204B4857414920),
  (0xE05, 0x5448414920434841524143544552204B484F204B484F4E20),
  (0xE06, 0x5448414920434841524143544552204B484F2052414B48414E4720),
  (0xE07, 0x5448414920434841524143544552204E474F204E475520),
  (0xE08, 0x54484149204348415241435445522043484F204348414E20),
  (0xE09, 0x54484149204348415241435445522043484F204348494E4720),
  (0xE0A, 0x54484149204348415241435445522043484F204348414E4720),
  (0xE0B, 0x544841492043484152414354455220534F20534F20),
  (0xE0C, 0x54484149204348415241435445522043484F2043484F4520),
  (0xE0D, 0x544841492043484152414354455220594F2059494E4720),
  (0xE0E, 0x544841492043484152414354455220444F20434841444120),
  (0xE0F, 0x544841492043484152414354455220544F20504154414B20),
  (0xE10, 0x54484149204348415241435445522054484F205448414E20),
  (0xE11, 0x54484149204348415241435445522054484F204E414E474D4F4E54484F20),
  (0xE12, 0x54484149204348415241435445522054484F205048555448414F20),
  (0xE13, 0x5448414920434841524143544552204E4F204E454E20),
  (0xE14, 0x544841492043484152414354455220444F2044454B20),
  (0xE15, 0x544841492043484152414354455220544F2054414F20),
  (0xE16, 0x54484149204348415241435445522054484F205448554E4720),
  (0xE17, 0x54484149204348415241435445522054484F2054484148414E20),
  (0xE18, 0x54484149204348415241435445522054484F2054484F4E4720),
  (0xE19, 0x5448414920434841524143544552204E4F204E5520),
  (0xE1A, 0x544841492043484152414354455220424F204241494D414920),
  (0xE1B, 0x544841492043484152414354455220504F20504C4120),
  (0xE1C, 0x54484149204348415241435445522050484F205048554E4720),
  (0xE1D, 0x544841492043484152414354455220464F20464120),
  (0xE1E, 0x54484149204348415241435445522050484F205048414E20),
  (0xE1F, 0x544841492043484152414354455220464F2046414E20),
  (0xE20, 0x54484149204348415241435445522050484F2053414D5048414F20),
  (0xE21, 0x5448414920434841524143544552204D4F204D4120)]
def names_48 : List (Nat × Nat) := [
  (0xE22, 0x544841492043484152414354455220594F2059414B20),
  (0xE23, 0x544841492043484152414354455220524F2052554120),
  (0xE24, 0x544841492043484152414354455220525520),
  (0xE25, 0x5448414920434841524143544552204C4F204C494E4720),
  (0xE26, 0x5448414920434841524143544552204C5520),
  (0xE27, 0x544841492043484152414354455220574F205741454E20),
  (0xE28, 0x544841492043484152414354455220534F2053414C4120),
  (0xE29, 0x544841492043484152414354455220534F205255534920),
  (0xE2A, 0x544841492043484152414354455220534F2053554120),
  (0xE2B, 0x544841492043484152414354455220484F2048495020),
  (0xE2C, 0x5448414920434841524143544552204C4F204348554C4120),
  (0xE2D, 0x5448414920434841524143544552204F20414E4720),
  (0xE2E, 0x544841492043484152414354455220484F204E4F4B48554B20),
  (0xE2F, 0x54484149204348415241435445522050414959414E4E4F4920),
  (0xE30, 0x54484149204348415241435445522053415241204120),
  (0xE31, 0x5448414920434841524143544552204D41492048414E2D414B415420),
  (0xE32, 0x5448414920434841524143544552205341524120414120),
  (0xE33, 0x5448414920434841524143544552205341524120414D20),
  (0xE34, 0x54484149204348415241435445522053415241204920),
  (0xE35, 0x5448414920434841524143544552205341524120494920),
  (0xE36, 0x5448414920434841524143544552205341524120554520),
  (0xE37, 0x544841492043484152414354455220534152412055454520),
  (0xE38, 0x54484149204348415241435445522053415241205520),
  (0xE39, 0x5448414920434841524143544552205341524120555520),
  (0xE3A, 0x5448414920434841524143544552205048494E54485520),
  (0xE3F, 0x544841492043555252454E43592053594D424F4C204241485420),
  (0xE40, 0x54484149204348415241435445522053415241204520),
  (0xE41, 0x5448414920434841524143544552205341524120414520),
  (0xE42, 0x54484149204348415241435445522053415241204F20),
  (0xE43, 0x54484149204348415241435445522053415241204149204D41494D55414E20),
  (0xE44, 0x54484149204348415241435445522053415241204149204D41494D414C414920),
  (0xE45, 0x5448414920434841524143544552204C414B4B48414E4759414F20),
  (0xE46, 0x5448414920434841524143544552204D414959414D4F4B20),
  (0xE47, 0x5448414920434841524143544552204D41495441494B485520),
  (0xE48, 0x5448414920434841524143544552204D414920454B20),
  (0xE49, 0x5448414920434841524143544552204D41492054484F20),
  (0xE4A, 0x5448414920434841524143544552204D41492054524920),
  (0xE4B, 0x5448414920434841524143544552204D414920434841545441574120),
  (0xE4C, 0x5448414920434841524143544552205448414E5448414B48415420),
  (0xE4D, 0x5448414920434841524143544552204E494B484148495420),
  (0xE4E, 0x54484149204348415241435445522059414D414B4B414E20),
  (0xE4F, 0x544841492043484152414354455220464F4E474D414E20),
  (0xE50, 0x54484149204449474954205A45524F20),
  (0xE51, 0x54484149204449474954204F4E4520),
  (0xE52, 0x544841492044494749542054574F20),
  (0xE53, 0x5448414920444947495420544852454520),
  (0xE54, 0x5448414920444947495420464F555220),
  (0xE55, 0x54484149204449474954204649564520),
  (0xE56, 0x544841492044494749542053495820),
  (0xE57, 0x5448414920444947495420534556454E20),
  (0xE58, 0x5448414920444947495420454947485420),
  (0xE59, 0x54484149204449474954204E494E4520),
  (0xE5A, 0x544841492043484152414354455220414E474B48414E4B485520),
  (0xE5B, 0x5448414920434841524143544552204B484F4D555420),
  (0xE81, 0x4C414F204C4554544552204B4F20),
  (0xE82, 0x4C414F204C4554544552204B484F2053554E4720),
  (0xE84, 0x4C414F204C4554544552204B484F2054414D20),
  (0xE87, 0x4C414F204C4554544552204E474F20),
  (0xE88, 0x4C414F204C455454455220434F20),
  (0xE8A, 0x4C414F204C455454455220534F2054414D20),
  (0xE8D, 0x4C414F204C4554544552204E594F20),
  (0xE94, 0x4C414F204C455454455220444F20),
  (0xE95, 0x4C414F204C455454455220544F20),
  (0xE96, 0x4C414F204C45545445522054484F2053554E4720)]
def names_49 : List (Nat × Nat) := [
  (0xE97, 0x4C414F204C45545445522054484F2054414D20),
  (0xE99, 0x4C414F204C4554544552204E4F20),
  (0xE9A, 0x4C414F204C455454455220424F20),
  (0xE9B, 0x4C414F204C455454455220504F20),
  (0xE9C, 0x4C414F204C45545445522050484F2053554E4720),
  (0xE9D, 0x4C414F204C455454455220464F2054414D20),
  (0xE9E, 0x4C414F204C45545445522050484F2054414D20),
  (0xE9F, 0x4C414F204C455454455220464F2053554E4720),
  (0xEA1, 0x4C414F204C4554544552204D4F20),
  (0xEA2, 0x4C414F204C455454455220594F20),
  (0xEA3, 0x4C414F204C4554544552204C4F204C494E4720),
  (0xEA5, 0x4C414F204C4554544552204C4F204C4F4F5420),
  (0xEA7, 0x4C414F204C455454455220574F20),
  (0xEAA, 0x4C414F204C455454455220534F2053554E4720),
  (0xEAB, 0x4C414F204C455454455220484F2053554E4720),
  (0xEAD, 0x4C414F204C4554544552204F20),
  (0xEAE, 0x4C414F204C455454455220484F2054414D20),
  (0xEAF, 0x4C414F20454C4C495053495320),
  (0xEB0, 0x4C414F20564F57454C205349474E204120),
  (0xEB1, 0x4C414F20564F57454C205349474E204D4149204B414E20),
  (0xEB2, 0x4C414F20564F57454C205349474E20414120),
  (0xEB3, 0x4C414F20564F57454C205349474E20414D20),
  (0xEB4, 0x4C414F20564F57454C205349474E204920),
  (0xEB5, 0x4C414F20564F57454C205349474E20494920),
  (0xEB6, 0x4C414F20564F57454C205349474E205920),
  (0xEB7, 0x4C414F20564F57454C205349474E20595920),
  (0xEB8, 0x4C414F20564F57454C205349474E205520),
  (0xEB9, 0x4C414F20564F57454C205349474E20555520),
  (0xEBB, 0x4C414F20564F57454C205349474E204D4149204B4F4E20),
  (0xEBC, 0x4C414F2053454D49564F57454C205349474E204C4F20),
  (0xEBD, 0x4C414F2053454D49564F57454C205349474E204E594F20),
  (0xEC0, 0x4C414F20564F57454C205349474E204520),
  (0xEC1, 0x4C414F20564F57454C205349474E20454920),
  (0xEC2, 0x4C414F20564F57454C205349474E204F20),
  (0xEC3, 0x4C414F20564F57454C205349474E20415920),
  (0xEC4, 0x4C414F20564F57454C205349474E20414920),
  (0xEC6, 0x4C414F204B4F204C4120),
  (0xEC8, 0x4C414F20544F4E45204D414920454B20),
  (0xEC9, 0x4C414F20544F4E45204D41492054484F20),
  (0xECA, 0x4C414F20544F4E45204D414920544920),
  (0xECB, 0x4C414F20544F4E45204D41492043415441574120),
  (0xECC, 0x4C414F2043414E43454C4C4154494F4E204D41524B20),
  (0xECD, 0x4C414F204E494747414849544120),
  (0xED0, 0x4C414F204449474954205A45524F20),
  (0xED1, 0x4C414F204449474954204F4E4520),
  (0xED2, 0x4C414F2044494749542054574F20),
  (0xED3, 0x4C414F20444947495420544852454520),
  (0xED4, 0x4C414F20444947495420464F555220),
  (0xED5, 0x4C414F204449474954204649564520),
  (0xED6, 0x4C414F2044494749542053495820),
  (0xED7, 0x4C414F20444947495420534556454E20),
  (0xED8, 0x4C414F20444947495420454947485420),
  (0xED9, 0x4C414F204449474954204E494E4520),
  (0xEDC, 0x4C414F20484F204E4F20),
  (0xEDD, 0x4C414F20484F204D4F20),
  (0xEDE, 0x4C414F204C4554544552204B484D5520474F20),
  (0xEDF, 0x4C414F204C4554544552204B484D55204E594F20),
  (0xF00, 0x5449424554414E2053594C4C41424C45204F4D20),
  (0xF01, 0x5449424554414E204D41524B204754455220594947204D474F205452554E4341544544204120),
  (0xF02, 0x5449424554414E204D41524B204754455220594947204D474F202D554D20524E414D2042434144204D4120),
  (0xF03, 0x5449424554414E204D41524B204754455220594947204D474F202D554D2047544552205453484547204D4120),
  (0xF04, 0x5449424554414E204D41524B20494E495449414C20594947204D474F204D44554E204D4120),
  (0xF05, 0x5449424554414E204D41524B20434C4F53494E4720594947204D474F2053474142204D4120),
  (0xF06, 0x5449424554414E204D41524B20434152455420594947204D474F20504855522053484144204D4120)]
def names_50 : List (Nat × Nat) := [
  (0xF07, 0x5449424554414E204D41524B20594947204D474F2054534845472053484144204D4120),
  (0xF08, 0x5449424554414E204D41524B20534252554C205348414420),
  (0xF09, 0x5449424554414E204D41524B2042534B555220594947204D474F20),
  (0xF0A, 0x5449424554414E204D41524B20424B412D2053484F4720594947204D474F20),
  (0xF0B, 0x5449424554414E204D41524B20494E54455253594C4C4142494320545348454720),
  (0xF0C, 0x5449424554414E204D41524B2044454C494D4954455220545348454720425354415220),
  (0xF0D, 0x5449424554414E204D41524B205348414420),
  (0xF0E, 0x5449424554414E204D41524B204E594953205348414420),
  (0xF0F, 0x5449424554414E204D41524B205453484547205348414420),
  (0xF10, 0x5449424554414E204D41524B204E594953205453484547205348414420),
  (0xF11, 0x5449424554414E204D41524B2052494E204348454E205350554E4753205348414420),
  (0xF12, 0x5449424554414E204D41524B2052475941204752414D205348414420),
  (0xF13, 0x5449424554414E204D41524B204341524554202D445A5544205254414753204D45204C4F4E472043414E20),
  (0xF14, 0x5449424554414E204D41524B204754455220545348454720),
  (0xF15, 0x5449424554414E204C4F474F54595045205349474E204348414420525441475320),
  (0xF16, 0x5449424554414E204C4F474F54595045205349474E204C48414720525441475320),
  (0xF17, 0x5449424554414E20415354524F4C4F474943414C205349474E2053475241204743414E202D4348415220525441475320),
  (0xF18, 0x5449424554414E20415354524F4C4F474943414C205349474E202D4B4859554420504120),
  (0xF19, 0x5449424554414E20415354524F4C4F474943414C205349474E2053444F4E472054534855475320),
  (0xF1A, 0x5449424554414E205349474E205244454C20444B4152204743494720),
  (0xF1B, 0x5449424554414E205349474E205244454C20444B415220474E59495320),
  (0xF1C, 0x5449424554414E205349474E205244454C20444B4152204753554D20),
  (0xF1D, 0x5449424554414E205349474E205244454C204E4147204743494720),
  (0xF1E, 0x5449424554414E205349474E205244454C204E414720474E59495320),
  (0xF1F, 0x5449424554414E205349474E205244454C20444B4152205244454C204E414720),
  (0xF20, 0x5449424554414E204449474954205A45524F20),
  (0xF21, 0x5449424554414E204449474954204F4E4520),
  (0xF22, 0x5449424554414E2044494749542054574F20),
  (0xF23, 0x5449424554414E20444947495420544852454520),
  (0xF24, 0x5449424554414E20444947495420464F555220),
  (0xF25, 0x5449424554414E204449474954204649564520),
  (0xF26, 0x5449424554414E2044494749542053495820),
  (0xF27, 0x5449424554414E20444947495420534556454E20),
  (0xF28, 0x5449424554414E20444947495420454947485420),
  (0xF29, 0x5449424554414E204449474954204E494E4520),
  (0xF2A, 0x5449424554414E2044494749542048414C46204F4E4520),
  (0xF2B, 0x5449424554414E2044494749542048414C462054574F20),
  (0xF2C, 0x5449424554414E2044494749542048414C4620544852454520),
  (0xF2D, 0x5449424554414E2044494749542048414C4620464F555220),
  (0xF2E, 0x5449424554414E2044494749542048414C46204649564520),
  (0xF2F, 0x5449424554414E2044494749542048414C462053495820),
  (0xF30, 0x5449424554414E2044494749542048414C4620534556454E20),
  (0xF31, 0x5449424554414E2044494749542048414C4620454947485420),
  (0xF32, 0x5449424554414E2044494749542048414C46204E494E4520),
  (0xF33, 0x5449424554414E2044494749542048414C46205A45524F20),
  (0xF34, 0x5449424554414E204D41524B20425344555320525441475320),
  (0xF35, 0x5449424554414E204D41524B204E47415320425A554E47204E5949205A4C4120),
  (0xF36, 0x5449424554414E204D41524B204341524554202D445A554420525441475320425A4849204D49472043414E20),
  (0xF37, 0x5449424554414E204D41524B204E47415320425A554E472053474F5220525441475320),
  (0xF38, 0x5449424554414E204D41524B20434845204D474F20),
  (0xF39, 0x5449424554414E204D41524B20545341202D5048525520),
  (0xF3A, 0x5449424554414E204D41524B204755472052544147532047594F4E20),
  (0xF3B, 0x5449424554414E204D41524B20475547205254414753204759415320),
  (0xF3C, 0x5449424554414E204D41524B20414E47204B48414E472047594F4E20),
  (0xF3D, 0x5449424554414E204D41524B20414E47204B48414E47204759415320),
  (0xF3E, 0x5449424554414E205349474E2059415220545348455320),
  (0xF3F, 0x5449424554414E205349474E204D415220545348455320),
  (0xF40, 0x5449424554414E204C4554544552204B4120),
  (0xF41, 0x5449424554414E204C4554544552204B484120),
  (0xF42, 0x5449424554414E204C455454455220474120),
  (0xF43, 0x5449424554414E204C45545445522047484120),
  (0xF44, 0x5449424554414E204C4554544552204E474120),
  (0xF45, 0x5449424554414E204C455454455220434120),
  (0xF46, 0x5449424554414E204C45545445522043484120)]
def names_51 : List (Nat × Nat) := [
  (0xF47, 0x5449424554414E204C4554544552204A4120),
  (0xF49, 0x5449424554414E204C4554544552204E594120),
  (0xF4A, 0x5449424554414E204C45545445522054544120),
  (0xF4B, 0x5449424554414E204C4554544552205454484120),
  (0xF4C, 0x5449424554414E204C45545445522044444120),
  (0xF4D, 0x5449424554414E204C4554544552204444484120),
  (0xF4E, 0x5449424554414E204C4554544552204E4E4120),
  (0xF4F, 0x5449424554414E204C455454455220544120),
  (0xF50, 0x5449424554414E204C45545445522054484120),
  (0xF51, 0x5449424554414E204C455454455220444120),
  (0xF52, 0x5449424554414E204C45545445522044484120),
  (0xF53, 0x5449424554414E204C4554544552204E4120),
  (0xF54, 0x5449424554414E204C455454455220504120),
  (0xF55, 0x5449424554414E204C45545445522050484120),
  (0xF56, 0x5449424554414E204C455454455220424120),
  (0xF57, 0x5449424554414E204C45545445522042484120),
  (0xF58, 0x5449424554414E204C4554544552204D4120),
  (0xF59, 0x5449424554414E204C45545445522054534120),
  (0xF5A, 0x5449424554414E204C4554544552205453484120),
  (0xF5B, 0x5449424554414E204C455454455220445A4120),
  (0xF5C, 0x5449424554414E204C455454455220445A484120),
  (0xF5D, 0x5449424554414E204C455454455220574120),
  (0xF5E, 0x5449424554414E204C4554544552205A484120),
  (0xF5F, 0x5449424554414E204C4554544552205A4120),
  (0xF60, 0x5449424554414E204C4554544552202D4120),
  (0xF61, 0x5449424554414E204C455454455220594120),
  (0xF62, 0x5449424554414E204C455454455220524120),
  (0xF63, 0x5449424554414E204C4554544552204C4120),
  (0xF64, 0x5449424554414E204C45545445522053484120),
  (0xF65, 0x5449424554414E204C45545445522053534120),
  (0xF66, 0x5449424554414E204C455454455220534120),
  (0xF67, 0x5449424554414E204C455454455220484120),
  (0xF68, 0x5449424554414E204C4554544552204120),
  (0xF69, 0x5449424554414E204C4554544552204B53534120),
  (0xF6A, 0x5449424554414E204C45545445522046495845442D464F524D20524120),
  (0xF6B, 0x5449424554414E204C4554544552204B4B4120),
  (0xF6C, 0x5449424554414E204C45545445522052524120),
  (0xF71, 0x5449424554414E20564F57454C205349474E20414120),
  (0xF72, 0x5449424554414E20564F57454C205349474E204920),
  (0xF73, 0x5449424554414E20564F57454C205349474E20494920),
  (0xF74, 0x5449424554414E20564F57454C205349474E205520),
  (0xF75, 0x5449424554414E20564F57454C205349474E20555520),
  (0xF76, 0x5449424554414E20564F57454C205349474E20564F43414C4943205220),
  (0xF77, 0x5449424554414E20564F57454C205349474E20564F43414C494320525220),
  (0xF78, 0x5449424554414E20564F57454C205349474E20564F43414C4943204C20),
  (0xF79, 0x5449424554414E20564F57454C205349474E20564F43414C4943204C4C20),
  (0xF7A, 0x5449424554414E20564F57454C205349474E204520),
  (0xF7B, 0x5449424554414E20564F57454C205349474E20454520),
  (0xF7C, 0x5449424554414E20564F57454C205349474E204F20),
  (0xF7D, 0x5449424554414E20564F57454C205349474E204F4F20),
  (0xF7E, 0x5449424554414E205349474E20524A4553205355204E474120524F20),
  (0xF7F, 0x5449424554414E205349474E20524E414D204243414420),
  (0xF80, 0x5449424554414E20564F57454C205349474E205245564552534544204920),
  (0xF81, 0x5449424554414E20564F57454C205349474E20524556455253454420494920),
  (0xF82, 0x5449424554414E205349474E204E5949205A4C41204E414120444120),
  (0xF83, 0x5449424554414E205349474E20534E41204C44414E20),
  (0xF84, 0x5449424554414E204D41524B2048414C414E544120),
  (0xF85, 0x5449424554414E204D41524B2050414C55544120),
  (0xF86, 0x5449424554414E205349474E204C434920525441475320),
  (0xF87, 0x5449424554414E205349474E2059414E4720525441475320),
  (0xF88, 0x5449424554414E205349474E204C4345205453412043414E20),
  (0xF89, 0x5449424554414E205349474E204D4348552043414E20),
  (0xF8A, 0x5449424554414E205349474E204752552043414E20524759494E475320),
  (0xF8B, 0x5449424554414E205349474E20475255204D454420524759494E475320)]
def names_52 : List (Nat × Nat) := [
  (0xF8C, 0x5449424554414E205349474E20494E564552544544204D4348552043414E20),
  (0xF8D, 0x5449424554414E205355424A4F494E4544205349474E204C4345205453412043414E20),
  (0xF8E, 0x5449424554414E205355424A4F494E4544205349474E204D4348552043414E20),
  (0xF8F, 0x5449424554414E205355424A4F494E4544205349474E20494E564552544544204D4348552043414E20),
  (0xF90, 0x5449424554414E205355424A4F494E4544204C4554544552204B4120),
  (0xF91, 0x5449424554414E205355424A4F494E4544204C4554544552204B484120),
  (0xF92, 0x5449424554414E205355424A4F494E4544204C455454455220474120),
  (0xF93, 0x5449424554414E205355424A4F494E4544204C45545445522047484120),
  (0xF94, 0x5449424554414E205355424A4F494E4544204C4554544552204E474120),
  (0xF95, 0x5449424554414E205355424A4F494E4544204C455454455220434120),
  (0xF96, 0x5449424554414E205355424A4F494E4544204C45545445522043484120),
  (0xF97, 0x5449424554414E205355424A4F494E4544204C4554544552204A4120),
  (0xF99, 0x5449424554414E205355424A4F494E4544204C4554544552204E594120),
  (0xF9A, 0x5449424554414E205355424A4F494E4544204C45545445522054544120),
  (0xF9B, 0x5449424554414E205355424A4F494E4544204C4554544552205454484120),
  (0xF9C, 0x5449424554414E205355424A4F494E4544204C45545445522044444120),
  (0xF9D, 0x5449424554414E205355424A4F494E4544204C4554544552204444484120),
  (0xF9E, 0x5449424554414E205355424A4F494E4544204C4554544552204E4E4120),
  (0xF9F, 0x5449424554414E205355424A4F494E4544204C455454455220544120),
  (0xFA0, 0x5449424554414E205355424A4F494E4544204C45545445522054484120),
  (0xFA1, 0x5449424554414E205355424A4F494E4544204C455454455220444120),
  (0xFA2, 0x5449424554414E205355424A4F494E4544204C45545445522044484120),
  (0xFA3, 0x5449424554414E205355424A4F494E4544204C4554544552204E4120),
  (0xFA4, 0x5449424554414E205355424A4F494E4544204C455454455220504120),
  (0xFA5, 0x5449424554414E205355424A4F494E4544204C45545445522050484120),
  (0xFA6, 0x5449424554414E205355424A4F494E4544204C455454455220424120),
  (0xFA7, 0x5449424554414E205355424A4F494E4544204C45545445522042484120),
  (0xFA8, 0x5449424554414E205355424A4F494E4544204C4554544552204D4120),
  (0xFA9, 0x5449424554414E205355424A4F494E4544204C45545445522054534120),
  (0xFAA, 0x5449424554414E205355424A4F494E4544204C4554544552205453484120),
  (0xFAB, 0x5449424554414E205355424A4F494E4544204C455454455220445A4120),
  (0xFAC, 0x5449424554414E205355424A4F494E4544204C455454455220445A484120),
  (0xFAD, 0x5449424554414E205355424A4F494E4544204C455454455220574120),
  (0xFAE, 0x5449424554414E205355424A4F494E4544204C4554544552205A484120),
  (0xFAF, 0x5449424554414E205355424A4F494E4544204C4554544552205A4120),
  (0xFB0, 0x5449424554414E205355424A4F494E4544204C4554544552202D4120),
  (0xFB1, 0x5449424554414E205355424A4F494E4544204C455454455220594120),
  (0xFB2, 0x5449424554414E205355424A4F494E4544204C455454455220524120),
  (0xFB3, 0x5449424554414E205355424A4F494E4544204C4554544552204C4120),
  (0xFB4, 0x5449424554414E205355424A4F494E4544204C45545445522053484120),
  (0xFB5, 0x5449424554414E205355424A4F494E4544204C45545445522053534120),
  (0xFB6, 0x5449424554414E205355424A4F494E4544204C455454455220534120),
  (0xFB7, 0x5449424554414E205355424A4F494E4544204C455454455220484120),
  (0xFB8, 0x5449424554414E205355424A4F494E4544204C4554544552204120),
  (0xFB9, 0x5449424554414E205355424A4F494E4544204C4554544552204B53534120),
  (0xFBA, 0x5449424554414E205355424A4F494E4544204C45545445522046495845442D464F524D20574120),
  (0xFBB, 0x5449424554414E205355424A4F494E4544204C45545445522046495845442D464F524D20594120),
  (0xFBC, 0x5449424554414E205355424A4F494E4544204C45545445522046495845442D464F524D20524120),
  (0xFBE, 0x5449424554414E204B55205255204B484120),
  (0xFBF, 0x5449424554414E204B55205255204B484120425A4849204D49472043414E20),
  (0xFC0, 0x5449424554414E2043414E54494C4C4154494F4E205349474E204845415659204245415420),
  (0xFC1, 0x5449424554414E2043414E54494C4C4154494F4E205349474E204C49474854204245415420),
  (0xFC2, 0x5449424554414E2043414E54494C4C4154494F4E205349474E2043414E472054452D5520),
  (0xFC3, 0x5449424554414E2043414E54494C4C4154494F4E205349474E2053425542202D4348414C20),
  (0xFC4, 0x5449424554414E2053594D424F4C204452494C20425520),
  (0xFC5, 0x5449424554414E2053594D424F4C2052444F20524A4520),
  (0xFC6, 0x5449424554414E2053594D424F4C205041444D41204744414E20),
  (0xFC7, 0x5449424554414E2053594D424F4C2052444F20524A452052475941204752414D20),
  (0xFC8, 0x5449424554414E2053594D424F4C205048555220504120),
  (0xFC9, 0x5449424554414E2053594D424F4C204E4F5220425520),
  (0xFCA, 0x5449424554414E2053594D424F4C204E4F52204255204E594953202D4B4859494C20),
  (0xFCB, 0x5449424554414E2053594D424F4C204E4F52204255204753554D202D4B4859494C20),
  (0xFCC, 0x5449424554414E2053594D424F4C204E4F5220425520425A4849202D4B4859494C20),
  (0xFCE, 0x5449424554414E205349474E205244454C204E4147205244454C20444B415220)]
def names_53 : List (Nat × Nat) := [
  (0xFCF, 0x5449424554414E205349474E205244454C204E4147204753554D20),
  (0xFD0, 0x5449424554414E204D41524B2042534B412D2053484F47204749204D474F20524759414E20),
  (0xFD1, 0x5449424554414E204D41524B204D4E59414D20594947204749204D474F20524759414E20),
  (0xFD2, 0x5449424554414E204D41524B204E59495320545348454720),
  (0xFD3, 0x5449424554414E204D41524B20494E495449414C204252444120524E59494E4720594947204D474F204D44554E204D4120),
  (0xFD4, 0x5449424554414E204D41524B20434C4F53494E47204252444120524E59494E4720594947204D474F2053474142204D4120),
  (0xFD5, 0x52494748542D464143494E4720535641535449205349474E20),
  (0xFD6, 0x4C4546542D464143494E4720535641535449205349474E20),
  (0xFD7, 0x52494748542D464143494E4720535641535449205349474E205749544820444F545320),
  (0xFD8, 0x4C4546542D464143494E4720535641535449205349474E205749544820444F545320),
  (0xFD9, 0x5449424554414E204D41524B204C454144494E47204D4348414E20525441475320),
  (0xFDA, 0x5449424554414E204D41524B20545241494C494E47204D4348414E20525441475320),
  (0x1000, 0x4D59414E4D4152204C4554544552204B4120),
  (0x1001, 0x4D59414E4D4152204C4554544552204B484120),
  (0x1002, 0x4D59414E4D4152204C455454455220474120),
  (0x1003, 0x4D59414E4D4152204C45545445522047484120),
  (0x1004, 0x4D59414E4D4152204C4554544552204E474120),
  (0x1005, 0x4D59414E4D4152204C455454455220434120),
  (0x1006, 0x4D59414E4D4152204C45545445522043484120),
  (0x1007, 0x4D59414E4D4152204C4554544552204A4120),
  (0x1008, 0x4D59414E4D4152204C4554544552204A484120),
  (0x1009, 0x4D59414E4D4152204C4554544552204E594120),
  (0x100A, 0x4D59414E4D4152204C4554544552204E4E594120),
  (0x100B, 0x4D59414E4D4152204C45545445522054544120),
  (0x100C, 0x4D59414E4D4152204C4554544552205454484120),
  (0x100D, 0x4D59414E4D4152204C45545445522044444120),
  (0x100E, 0x4D59414E4D4152204C4554544552204444484120),
  (0x100F, 0x4D59414E4D4152204C4554544552204E4E4120),
  (0x1010, 0x4D59414E4D4152204C455454455220544120),
  (0x1011, 0x4D59414E4D4152204C45545445522054484120),
  (0x1012, 0x4D59414E4D4152204C455454455220444120),
  (0x1013, 0x4D59414E4D4152204C45545445522044484120),
  (0x1014, 0x4D59414E4D4152204C4554544552204E4120),
  (0x1015, 0x4D59414E4D4152204C455454455220504120),
  (0x1016, 0x4D59414E4D4152204C45545445522050484120),
  (0x1017, 0x4D59414E4D4152204C455454455220424120),
  (0x1018, 0x4D59414E4D4152204C45545445522042484120),
  (0x1019, 0x4D59414E4D4152204C4554544552204D4120),
  (0x101A, 0x4D59414E4D4152204C455454455220594120),
  (0x101B, 0x4D59414E4D4152204C455454455220524120),
  (0x101C, 0x4D59414E4D4152204C4554544552204C4120),
  (0x101D, 0x4D59414E4D4152204C455454455220574120),
  (0x101E, 0x4D59414E4D4152204C455454455220534120),
  (0x101F, 0x4D59414E4D4152204C455454455220484120),
  (0x1020, 0x4D59414E4D4152204C4554544552204C4C4120),
  (0x1021, 0x4D59414E4D4152204C4554544552204120),
  (0x1022, 0x4D59414E4D4152204C4554544552205348414E204120),
  (0x1023, 0x4D59414E4D4152204C4554544552204920),
  (0x1024, 0x4D59414E4D4152204C455454455220494920),
  (0x1025, 0x4D59414E4D4152204C4554544552205520),
  (0x1026, 0x4D59414E4D4152204C455454455220555520),
  (0x1027, 0x4D59414E4D4152204C4554544552204520),
  (0x1028, 0x4D59414E4D4152204C4554544552204D4F4E204520),
  (0x1029, 0x4D59414E4D4152204C4554544552204F20),
  (0x102A, 0x4D59414E4D4152204C455454455220415520),
  (0x102B, 0x4D59414E4D415220564F57454C205349474E2054414C4C20414120),
  (0x102C, 0x4D59414E4D415220564F57454C205349474E20414120),
  (0x102D, 0x4D59414E4D415220564F57454C205349474E204920),
  (0x102E, 0x4D59414E4D415220564F57454C205349474E20494920),
  (0x102F, 0x4D59414E4D415220564F57454C205349474E205520),
  (0x1030, 0x4D59414E4D415220564F57454C205349474E20555520),
  (0x1031, 0x4D59414E4D415220564F57454C205349474E204520),
  (0x1032, 0x4D59414E4D415220564F57454C205349474E20414920),
  (0x1033, 0x4D59414E4D415220564F57454C205349474E204D4F4E20494920)]
def names_54 : List (Nat × Nat) := [
  (0x1034, 0x4D59414E4D415220564F57454C205349474E204D4F4E204F20),
  (0x1035, 0x4D59414E4D415220564F57454C205349474E20452041424F564520),
  (0x1036, 0x4D59414E4D4152205349474E20414E55535641524120),
  (0x1037, 0x4D59414E4D4152205349474E20444F542042454C4F5720),
  (0x1038, 0x4D59414E4D4152205349474E205649534152474120),
  (0x1039, 0x4D59414E4D4152205349474E20564952414D4120),
  (0x103A, 0x4D59414E4D4152205349474E204153415420),
  (0x103B, 0x4D59414E4D415220434F4E534F4E414E54205349474E204D454449414C20594120),
  (0x103C, 0x4D59414E4D415220434F4E534F4E414E54205349474E204D454449414C20524120),
  (0x103D, 0x4D59414E4D415220434F4E534F4E414E54205349474E204D454449414C20574120),
  (0x103E, 0x4D59414E4D415220434F4E534F4E414E54205349474E204D454449414C20484120),
  (0x103F, 0x4D59414E4D4152204C455454455220475245415420534120),
  (0x1040, 0x4D59414E4D4152204449474954205A45524F20),
  (0x1041, 0x4D59414E4D4152204449474954204F4E4520),
  (0x1042, 0x4D59414E4D41522044494749542054574F20),
  (0x1043, 0x4D59414E4D415220444947495420544852454520),
  (0x1044, 0x4D59414E4D415220444947495420464F555220),
  (0x1045, 0x4D59414E4D4152204449474954204649564520),
  (0x1046, 0x4D59414E4D41522044494749542053495820),
  (0x1047, 0x4D59414E4D415220444947495420534556454E20),
  (0x1048, 0x4D59414E4D415220444947495420454947485420),
  (0x1049, 0x4D59414E4D4152204449474954204E494E4520),
  (0x104A, 0x4D59414E4D4152205349474E204C4954544C452053454354494F4E20),
  (0x104B, 0x4D59414E4D4152205349474E2053454354494F4E20),
  (0x104C, 0x4D59414E4D41522053594D424F4C204C4F43415449564520),
  (0x104D, 0x4D59414E4D41522053594D424F4C20434F4D504C4554454420),
  (0x104E, 0x4D59414E4D41522053594D424F4C2041464F52454D454E54494F4E454420),
  (0x104F, 0x4D59414E4D41522053594D424F4C2047454E495449564520),
  (0x1050, 0x4D59414E4D4152204C45545445522053484120),
  (0x1051, 0x4D59414E4D4152204C45545445522053534120),
  (0x1052, 0x4D59414E4D4152204C455454455220564F43414C4943205220),
  (0x1053, 0x4D59414E4D4152204C455454455220564F43414C494320525220),
  (0x1054, 0x4D59414E4D4152204C455454455220564F43414C4943204C20),
  (0x1055, 0x4D59414E4D4152204C455454455220564F43414C4943204C4C20),
  (0x1056, 0x4D59414E4D415220564F57454C205349474E20564F43414C4943205220),
  (0x1057, 0x4D59414E4D415220564F57454C205349474E20564F43414C494320525220),
  (0x1058, 0x4D59414E4D415220564F57454C205349474E20564F43414C4943204C20),
  (0x1059, 0x4D59414E4D415220564F57454C205349474E20564F43414C4943204C4C20),
  (0x105A, 0x4D59414E4D4152204C4554544552204D4F4E204E474120),
  (0x105B, 0x4D59414E4D4152204C4554544552204D4F4E204A484120),
  (0x105C, 0x4D59414E4D4152204C4554544552204D4F4E2042424120),
  (0x105D, 0x4D59414E4D4152204C4554544552204D4F4E2042424520),
  (0x105E, 0x4D59414E4D415220434F4E534F4E414E54205349474E204D4F4E204D454449414C204E4120),
  (0x105F, 0x4D59414E4D415220434F4E534F4E414E54205349474E204D4F4E204D454449414C204D4120),
  (0x1060, 0x4D59414E4D415220434F4E534F4E414E54205349474E204D4F4E204D454449414C204C4120),
  (0x1061, 0x4D59414E4D4152204C45545445522053474157204B4152454E2053484120),
  (0x1062, 0x4D59414E4D415220564F57454C205349474E2053474157204B4152454E20455520),
  (0x1063, 0x4D59414E4D415220544F4E45204D41524B2053474157204B4152454E20484154484920),
  (0x1064, 0x4D59414E4D415220544F4E45204D41524B2053474157204B4152454E204B452050484F20),
  (0x1065, 0x4D59414E4D4152204C4554544552205745535445524E2050574F204B4152454E2054484120),
  (0x1066, 0x4D59414E4D4152204C4554544552205745535445524E2050574F204B4152454E2050574120),
  (0x1067, 0x4D59414E4D415220564F57454C205349474E205745535445524E2050574F204B4152454E20455520),
  (0x1068, 0x4D59414E4D415220564F57454C205349474E205745535445524E2050574F204B4152454E20554520),
  (0x1069, 0x4D59414E4D4152205349474E205745535445524E2050574F204B4152454E20544F4E452D3120),
  (0x106A, 0x4D59414E4D4152205349474E205745535445524E2050574F204B4152454E20544F4E452D3220),
  (0x106B, 0x4D59414E4D4152205349474E205745535445524E2050574F204B4152454E20544F4E452D3320),
  (0x106C, 0x4D59414E4D4152205349474E205745535445524E2050574F204B4152454E20544F4E452D3420),
  (0x106D, 0x4D59414E4D4152205349474E205745535445524E2050574F204B4152454E20544F4E452D3520),
  (0x106E, 0x4D59414E4D4152204C4554544552204541535445524E2050574F204B4152454E204E4E4120),
  (0x106F, 0x4D59414E4D4152204C4554544552204541535445524E2050574F204B4152454E2059574120),
  (0x1070, 0x4D59414E4D4152204C4554544552204541535445524E2050574F204B4152454E204748574120),
  (0x1071, 0x4D59414E4D415220564F57454C205349474E2047454241204B4152454E204920),
  (0x1072, 0x4D59414E4D415220564F57454C205349474E204B41594148204F4520),
  (0x1073, 0x4D59414E4D415220564F57454C205349474E204B41594148205520)]
def names_55 : List (Nat × Nat) := [
  (0x1074, 0x4D59414E4D415220564F57454C205349474E204B4159414820454520),
  (0x1075, 0x4D59414E4D4152204C4554544552205348414E204B4120),
  (0x1076, 0x4D59414E4D4152204C4554544552205348414E204B484120),
  (0x1077, 0x4D59414E4D4152204C4554544552205348414E20474120),
  (0x1078, 0x4D59414E4D4152204C4554544552205348414E20434120),
  (0x1079, 0x4D59414E4D4152204C4554544552205348414E205A4120),
  (0x107A, 0x4D59414E4D4152204C4554544552205348414E204E594120),
  (0x107B, 0x4D59414E4D4152204C4554544552205348414E20444120),
  (0x107C, 0x4D59414E4D4152204C4554544552205348414E204E4120),
  (0x107D, 0x4D59414E4D4152204C4554544552205348414E2050484120),
  (0x107E, 0x4D59414E4D4152204C4554544552205348414E20464120),
  (0x107F, 0x4D59414E4D4152204C4554544552205348414E20424120),
  (0x1080, 0x4D59414E4D4152204C4554544552205348414E2054484120),
  (0x1081, 0x4D59414E4D4152204C4554544552205348414E20484120),
  (0x1082, 0x4D59414E4D415220434F4E534F4E414E54205349474E205348414E204D454449414C20574120),
  (0x1083, 0x4D59414E4D415220564F57454C205349474E205348414E20414120),
  (0x1084, 0x4D59414E4D415220564F57454C205349474E205348414E204520),
  (0x1085, 0x4D59414E4D415220564F57454C205349474E205348414E20452041424F564520),
  (0x1086, 0x4D59414E4D415220564F57454C205349474E205348414E2046494E414C205920),
  (0x1087, 0x4D59414E4D4152205349474E205348414E20544F4E452D3220),
  (0x1088, 0x4D59414E4D4152205349474E205348414E20544F4E452D3320),
  (0x1089, 0x4D59414E4D4152205349474E205348414E20544F4E452D3520),
  (0x108A, 0x4D59414E4D4152205349474E205348414E20544F4E452D3620),
  (0x108B, 0x4D59414E4D4152205349474E205348414E20434F554E43494C20544F4E452D3220),
  (0x108C, 0x4D59414E4D4152205349474E205348414E20434F554E43494C20544F4E452D3320),
  (0x108D, 0x4D59414E4D4152205349474E205348414E20434F554E43494C20454D50484154494320544F4E4520),
  (0x108E, 0x4D59414E4D4152204C45545445522052554D41492050414C41554E4720464120),
  (0x108F, 0x4D59414E4D4152205349474E2052554D41492050414C41554E4720544F4E452D3520),
  (0x1090, 0x4D59414E4D4152205348414E204449474954205A45524F20),
  (0x1091, 0x4D59414E4D4152205348414E204449474954204F4E4520),
  (0x1092, 0x4D59414E4D4152205348414E2044494749542054574F20),
  (0x1093, 0x4D59414E4D4152205348414E20444947495420544852454520),
  (0x1094, 0x4D59414E4D4152205348414E20444947495420464F555220),
  (0x1095, 0x4D59414E4D4152205348414E204449474954204649564520),
  (0x1096, 0x4D59414E4D4152205348414E2044494749542053495820),
  (0x1097, 0x4D59414E4D4152205348414E20444947495420534556454E20),
  (0x1098, 0x4D59414E4D4152205348414E20444947495420454947485420),
  (0x1099, 0x4D59414E4D4152205348414E204449474954204E494E4520),
  (0x109A, 0x4D59414E4D4152205349474E204B48414D544920544F4E452D3120),
  (0x109B, 0x4D59414E4D4152205349474E204B48414D544920544F4E452D3320),
  (0x109C, 0x4D59414E4D415220564F57454C205349474E204149544F4E204120),
  (0x109D, 0x4D59414E4D415220564F57454C205349474E204149544F4E20414920),
  (0x109E, 0x4D59414E4D41522053594D424F4C205348414E204F4E4520),
  (0x109F, 0x4D59414E4D41522053594D424F4C205348414E204558434C414D4154494F4E20),
  (0x10A0, 0x47454F524749414E204341504954414C204C455454455220414E20),
  (0x10A1, 0x47454F524749414E204341504954414C204C45545445522042414E20),
  (0x10A2, 0x47454F524749414E204341504954414C204C45545445522047414E20),
  (0x10A3, 0x47454F524749414E204341504954414C204C455454455220444F4E20),
  (0x10A4, 0x47454F524749414E204341504954414C204C455454455220454E20),
  (0x10A5, 0x47454F524749414E204341504954414C204C45545445522056494E20),
  (0x10A6, 0x47454F524749414E204341504954414C204C4554544552205A454E20),
  (0x10A7, 0x47454F524749414E204341504954414C204C45545445522054414E20),
  (0x10A8, 0x47454F524749414E204341504954414C204C455454455220494E20),
  (0x10A9, 0x47454F524749414E204341504954414C204C4554544552204B414E20),
  (0x10AA, 0x47454F524749414E204341504954414C204C4554544552204C415320),
  (0x10AB, 0x47454F524749414E204341504954414C204C4554544552204D414E20),
  (0x10AC, 0x47454F524749414E204341504954414C204C4554544552204E415220),
  (0x10AD, 0x47454F524749414E204341504954414C204C4554544552204F4E20),
  (0x10AE, 0x47454F524749414E204341504954414C204C45545445522050415220),
  (0x10AF, 0x47454F524749414E204341504954414C204C4554544552205A48415220),
  (0x10B0, 0x47454F524749414E204341504954414C204C45545445522052414520),
  (0x10B1, 0x47454F524749414E204341504954414C204C45545445522053414E20),
  (0x10B2, 0x47454F524749414E204341504954414C204C45545445522054415220),
  (0x10B3, 0x47454F524749414E204341504954414C204C455454455220554E20)]
def names_56 : List (Nat × Nat) := [
  (0x10B4, 0x47454F524749414E204341504954414C204C4554544552205048415220),
  (0x10B5, 0x47454F524749414E204341504954414C204C4554544552204B48415220),
  (0x10B6, 0x47454F524749414E204341504954414C204C4554544552204748414E20),
  (0x10B7, 0x47454F524749414E204341504954414C204C45545445522051415220),
  (0x10B8, 0x47454F524749414E204341504954414C204C4554544552205348494E20),
  (0x10B9, 0x47454F524749414E204341504954414C204C4554544552204348494E20),
  (0x10BA, 0x47454F524749414E204341504954414C204C45545445522043414E20),
  (0x10BB, 0x47454F524749414E204341504954414C204C4554544552204A494C20),
  (0x10BC, 0x47454F524749414E204341504954414C204C45545445522043494C20),
  (0x10BD, 0x47454F524749414E204341504954414C204C4554544552204348415220),
  (0x10BE, 0x47454F524749414E204341504954414C204C45545445522058414E20),
  (0x10BF, 0x47454F524749414E204341504954414C204C4554544552204A48414E20),
  (0x10C0, 0x47454F524749414E204341504954414C204C45545445522048414520),
  (0x10C1, 0x47454F524749414E204341504954414C204C455454455220484520),
  (0x10C2, 0x47454F524749414E204341504954414C204C45545445522048494520),
  (0x10C3, 0x47454F524749414E204341504954414C204C455454455220574520),
  (0x10C4, 0x47454F524749414E204341504954414C204C45545445522048415220),
  (0x10C5, 0x47454F524749414E204341504954414C204C455454455220484F4520),
  (0x10C7, 0x47454F524749414E204341504954414C204C455454455220594E20),
  (0x10CD, 0x47454F524749414E204341504954414C204C45545445522041454E20),
  (0x10D0, 0x47454F524749414E204C455454455220414E20),
  (0x10D1, 0x47454F524749414E204C45545445522042414E20),
  (0x10D2, 0x47454F524749414E204C45545445522047414E20),
  (0x10D3, 0x47454F524749414E204C455454455220444F4E20),
  (0x10D4, 0x47454F524749414E204C455454455220454E20),
  (0x10D5, 0x47454F524749414E204C45545445522056494E20),
  (0x10D6, 0x47454F524749414E204C4554544552205A454E20),
  (0x10D7, 0x47454F524749414E204C45545445522054414E20),
  (0x10D8, 0x47454F524749414E204C455454455220494E20),
  (0x10D9, 0x47454F524749414E204C4554544552204B414E20),
  (0x10DA, 0x47454F524749414E204C4554544552204C415320),
  (0x10DB, 0x47454F524749414E204C4554544552204D414E20),
  (0x10DC, 0x47454F524749414E204C4554544552204E415220),
  (0x10DD, 0x47454F524749414E204C4554544552204F4E20),
  (0x10DE, 0x47454F524749414E204C45545445522050415220),
  (0x10DF, 0x47454F524749414E204C4554544552205A48415220),
  (0x10E0, 0x47454F524749414E204C45545445522052414520),
  (0x10E1, 0x47454F524749414E204C45545445522053414E20),
  (0x10E2, 0x47454F524749414E204C45545445522054415220),
  (0x10E3, 0x47454F524749414E204C455454455220554E20),
  (0x10E4, 0x47454F524749414E204C4554544552205048415220),
  (0x10E5, 0x47454F524749414E204C4554544552204B48415220),
  (0x10E6, 0x47454F524749414E204C4554544552204748414E20),
  (0x10E7, 0x47454F524749414E204C45545445522051415220),
  (0x10E8, 0x47454F524749414E204C4554544552205348494E20),
  (0x10E9, 0x47454F524749414E204C4554544552204348494E20),
  (0x10EA, 0x47454F524749414E204C45545445522043414E20),
  (0x10EB, 0x47454F524749414E204C4554544552204A494C20),
  (0x10EC, 0x47454F524749414E204C45545445522043494C20),
  (0x10ED, 0x47454F524749414E204C4554544552204348415220),
  (0x10EE, 0x47454F524749414E204C45545445522058414E20),
  (0x10EF, 0x47454F524749414E204C4554544552204A48414E20),
  (0x10F0, 0x47454F524749414E204C45545445522048414520),
  (0x10F1, 0x47454F524749414E204C455454455220484520),
  (0x10F2, 0x47454F524749414E204C45545445522048494520),
  (0x10F3, 0x47454F524749414E204C455454455220574520),
  (0x10F4, 0x47454F524749414E204C45545445522048415220),
  (0x10F5, 0x47454F524749414E204C455454455220484F4520),
  (0x10F6, 0x47454F524749414E204C455454455220464920),
  (0x10F7, 0x47454F524749414E204C455454455220594E20),
  (0x10F8, 0x47454F524749414E204C455454455220454C49464920),
  (0x10F9, 0x47454F524749414E204C4554544552205455524E45442047414E20),
  (0x10FA, 0x47454F524749414E204C45545445522041494E20),
  (0x10FB, 0x47454F524749414E2050415241475241504820534550415241544F5220)]
def names_57 : List (Nat × Nat) := [
  (0x10FC, 0x4D4F444946494552204C45545445522047454F524749414E204E415220),
  (0x10FD, 0x47454F524749414E204C45545445522041454E20),
  (0x10FE, 0x47454F524749414E204C45545445522048415244205349474E20),
  (0x10FF, 0x47454F524749414E204C4554544552204C414249414C205349474E20),
  (0x1100, 0x48414E47554C2043484F53454F4E47204B4959454F4B20),
  (0x1101, 0x48414E47554C2043484F53454F4E47205353414E474B4959454F4B20),
  (0x1102, 0x48414E47554C2043484F53454F4E47204E4945554E20),
  (0x1103, 0x48414E47554C2043484F53454F4E472054494B45555420),
  (0x1104, 0x48414E47554C2043484F53454F4E47205353414E4754494B45555420),
  (0x1105, 0x48414E47554C2043484F53454F4E4720524945554C20),
  (0x1106, 0x48414E47554C2043484F53454F4E47204D4945554D20),
  (0x1107, 0x48414E47554C2043484F53454F4E4720504945555020),
  (0x1108, 0x48414E47554C2043484F53454F4E47205353414E47504945555020),
  (0x1109, 0x48414E47554C2043484F53454F4E472053494F5320),
  (0x110A, 0x48414E47554C2043484F53454F4E47205353414E4753494F5320),
  (0x110B, 0x48414E47554C2043484F53454F4E47204945554E4720),
  (0x110C, 0x48414E47554C2043484F53454F4E4720434945554320),
  (0x110D, 0x48414E47554C2043484F53454F4E47205353414E47434945554320),
  (0x110E, 0x48414E47554C2043484F53454F4E47204348494555434820),
  (0x110F, 0x48414E47554C2043484F53454F4E47204B484945554B4820),
  (0x1110, 0x48414E47554C2043484F53454F4E47205448494555544820),
  (0x1111, 0x48414E47554C2043484F53454F4E47205048494555504820),
  (0x1112, 0x48414E47554C2043484F53454F4E4720484945554820),
  (0x1113, 0x48414E47554C2043484F53454F4E47204E4945554E2D4B4959454F4B20),
  (0x1114, 0x48414E47554C2043484F53454F4E47205353414E474E4945554E20),
  (0x1115, 0x48414E47554C2043484F53454F4E47204E4945554E2D54494B45555420),
  (0x1116, 0x48414E47554C2043484F53454F4E47204E4945554E2D504945555020),
  (0x1117, 0x48414E47554C2043484F53454F4E472054494B4555542D4B4959454F4B20),
  (0x1118, 0x48414E47554C2043484F53454F4E4720524945554C2D4E4945554E20),
  (0x1119, 0x48414E47554C2043484F53454F4E47205353414E47524945554C20),
  (0x111A, 0x48414E47554C2043484F53454F4E4720524945554C2D484945554820),
  (0x111B, 0x48414E47554C2043484F53454F4E47204B415059454F554E524945554C20),
  (0x111C, 0x48414E47554C2043484F53454F4E47204D4945554D2D504945555020),
  (0x111D, 0x48414E47554C2043484F53454F4E47204B415059454F554E4D4945554D20),
  (0x111E, 0x48414E47554C2043484F53454F4E472050494555502D4B4959454F4B20),
  (0x111F, 0x48414E47554C2043484F53454F4E472050494555502D4E4945554E20),
  (0x1120, 0x48414E47554C2043484F53454F4E472050494555502D54494B45555420),
  (0x1121, 0x48414E47554C2043484F53454F4E472050494555502D53494F5320),
  (0x1122, 0x48414E47554C2043484F53454F4E472050494555502D53494F532D4B4959454F4B20),
  (0x1123, 0x48414E47554C2043484F53454F4E472050494555502D53494F532D54494B45555420),
  (0x1124, 0x48414E47554C2043484F53454F4E472050494555502D53494F532D504945555020),
  (0x1125, 0x48414E47554C2043484F53454F4E472050494555502D5353414E4753494F5320),
  (0x1126, 0x48414E47554C2043484F53454F4E472050494555502D53494F532D434945554320),
  (0x1127, 0x48414E47554C2043484F53454F4E472050494555502D434945554320),
  (0x1128, 0x48414E47554C2043484F53454F4E472050494555502D4348494555434820),
  (0x1129, 0x48414E47554C2043484F53454F4E472050494555502D5448494555544820),
  (0x112A, 0x48414E47554C2043484F53454F4E472050494555502D5048494555504820),
  (0x112B, 0x48414E47554C2043484F53454F4E47204B415059454F554E504945555020),
  (0x112C, 0x48414E47554C2043484F53454F4E47204B415059454F554E5353414E47504945555020),
  (0x112D, 0x48414E47554C2043484F53454F4E472053494F532D4B4959454F4B20),
  (0x112E, 0x48414E47554C2043484F53454F4E472053494F532D4E4945554E20),
  (0x112F, 0x48414E47554C2043484F53454F4E472053494F532D54494B45555420),
  (0x1130, 0x48414E47554C2043484F53454F4E472053494F532D524945554C20),
  (0x1131, 0x48414E47554C2043484F53454F4E472053494F532D4D4945554D20),
  (0x1132, 0x48414E47554C2043484F53454F4E472053494F532D504945555020),
  (0x1133, 0x48414E47554C2043484F53454F4E472053494F532D50494555502D4B4959454F4B20),
  (0x1134, 0x48414E47554C2043484F53454F4E472053494F532D5353414E4753494F5320),
  (0x1135, 0x48414E47554C2043484F53454F4E472053494F532D4945554E4720),
  (0x1136, 0x48414E47554C2043484F53454F4E472053494F532D434945554320),
  (0x1137, 0x48414E47554C2043484F53454F4E472053494F532D4348494555434820),
  (0x1138, 0x48414E47554C2043484F53454F4E472053494F532D4B484945554B4820),
  (0x1139, 0x48414E47554C2043484F53454F4E472053494F532D5448494555544820),
  (0x113A, 0x48414E47554C2043484F53454F4E472053494F532D5048494555504820),
  (0x113B, 0x48414E47554C2043484F53454F4E472053494F532D484945554820)]
def names_58 : List (Nat × Nat) := [
  (0x113C, 0x48414E47554C2043484F53454F4E4720434849545545554D53494F5320),
  (0x113D, 0x48414E47554C2043484F53454F4E4720434849545545554D5353414E4753494F5320),
  (0x113E, 0x48414E47554C2043484F53454F4E472043454F4E4743484945554D53494F5320),
  (0x113F, 0x48414E47554C2043484F53454F4E472043454F4E4743484945554D5353414E4753494F5320),
  (0x1140, 0x48414E47554C2043484F53454F4E472050414E53494F5320),
  (0x1141, 0x48414E47554C2043484F53454F4E47204945554E472D4B4959454F4B20),
  (0x1142, 0x48414E47554C2043484F53454F4E47204945554E472D54494B45555420),
  (0x1143, 0x48414E47554C2043484F53454F4E47204945554E472D4D4945554D20),
  (0x1144, 0x48414E47554C2043484F53454F4E47204945554E472D504945555020),
  (0x1145, 0x48414E47554C2043484F53454F4E47204945554E472D53494F5320),
  (0x1146, 0x48414E47554C2043484F53454F4E47204945554E472D50414E53494F5320),
  (0x1147, 0x48414E47554C2043484F53454F4E47205353414E474945554E4720),
  (0x1148, 0x48414E47554C2043484F53454F4E47204945554E472D434945554320),
  (0x1149, 0x48414E47554C2043484F53454F4E47204945554E472D4348494555434820),
  (0x114A, 0x48414E47554C2043484F53454F4E47204945554E472D5448494555544820),
  (0x114B, 0x48414E47554C2043484F53454F4E47204945554E472D5048494555504820),
  (0x114C, 0x48414E47554C2043484F53454F4E47205945534945554E4720),
  (0x114D, 0x48414E47554C2043484F53454F4E472043494555432D4945554E4720),
  (0x114E, 0x48414E47554C2043484F53454F4E4720434849545545554D434945554320),
  (0x114F, 0x48414E47554C2043484F53454F4E4720434849545545554D5353414E47434945554320),
  (0x1150, 0x48414E47554C2043484F53454F4E472043454F4E4743484945554D434945554320),
  (0x1151, 0x48414E47554C2043484F53454F4E472043454F4E4743484945554D5353414E47434945554320),
  (0x1152, 0x48414E47554C2043484F53454F4E4720434849455543482D4B484945554B4820),
  (0x1153, 0x48414E47554C2043484F53454F4E4720434849455543482D484945554820),
  (0x1154, 0x48414E47554C2043484F53454F4E4720434849545545554D4348494555434820),
  (0x1155, 0x48414E47554C2043484F53454F4E472043454F4E4743484945554D4348494555434820),
  (0x1156, 0x48414E47554C2043484F53454F4E4720504849455550482D504945555020),
  (0x1157, 0x48414E47554C2043484F53454F4E47204B415059454F554E5048494555504820),
  (0x1158, 0x48414E47554C2043484F53454F4E47205353414E47484945554820),
  (0x1159, 0x48414E47554C2043484F53454F4E472059454F52494E484945554820),
  (0x115A, 0x48414E47554C2043484F53454F4E47204B4959454F4B2D54494B45555420),
  (0x115B, 0x48414E47554C2043484F53454F4E47204E4945554E2D53494F5320),
  (0x115C, 0x48414E47554C2043484F53454F4E47204E4945554E2D434945554320),
  (0x115D, 0x48414E47554C2043484F53454F4E47204E4945554E2D484945554820),
  (0x115E, 0x48414E47554C2043484F53454F4E472054494B4555542D524945554C20),
  (0x115F, 0x48414E47554C2043484F53454F4E472046494C4C455220),
  (0x1160, 0x48414E47554C204A554E4753454F4E472046494C4C455220),
  (0x1161, 0x48414E47554C204A554E4753454F4E47204120),
  (0x1162, 0x48414E47554C204A554E4753454F4E4720414520),
  (0x1163, 0x48414E47554C204A554E4753454F4E4720594120),
  (0x1164, 0x48414E47554C204A554E4753454F4E472059414520),
  (0x1165, 0x48414E47554C204A554E4753454F4E4720454F20),
  (0x1166, 0x48414E47554C204A554E4753454F4E47204520),
  (0x1167, 0x48414E47554C204A554E4753454F4E472059454F20),
  (0x1168, 0x48414E47554C204A554E4753454F4E4720594520),
  (0x1169, 0x48414E47554C204A554E4753454F4E47204F20),
  (0x116A, 0x48414E47554C204A554E4753454F4E4720574120),
  (0x116B, 0x48414E47554C204A554E4753454F4E472057414520),
  (0x116C, 0x48414E47554C204A554E4753454F4E47204F4520),
  (0x116D, 0x48414E47554C204A554E4753454F4E4720594F20),
  (0x116E, 0x48414E47554C204A554E4753454F4E47205520),
  (0x116F, 0x48414E47554C204A554E4753454F4E472057454F20),
  (0x1170, 0x48414E47554C204A554E4753454F4E4720574520),
  (0x1171, 0x48414E47554C204A554E4753454F4E4720574920),
  (0x1172, 0x48414E47554C204A554E4753454F4E4720595520),
  (0x1173, 0x48414E47554C204A554E4753454F4E4720455520),
  (0x1174, 0x48414E47554C204A554E4753454F4E4720594920),
  (0x1175, 0x48414E47554C204A554E4753454F4E47204920),
  (0x1176, 0x48414E47554C204A554E4753454F4E4720412D4F20),
  (0x1177, 0x48414E47554C204A554E4753454F4E4720412D5520),
  (0x1178, 0x48414E47554C204A554E4753454F4E472059412D4F20),
  (0x1179, 0x48414E47554C204A554E4753454F4E472059412D594F20),
  (0x117A, 0x48414E47554C204A554E4753454F4E4720454F2D4F20),
  (0x117B, 0x48414E47554C204A554E4753454F4E4720454F2D5520)]
def names_59 : List (Nat × Nat) := [
  (0x117C, 0x48414E47554C204A554E4753454F4E4720454F2D455520),
  (0x117D, 0x48414E47554C204A554E4753454F4E472059454F2D4F20),
  (0x117E, 0x48414E47554C204A554E4753454F4E472059454F2D5520),
  (0x117F, 0x48414E47554C204A554E4753454F4E47204F2D454F20),
  (0x1180, 0x48414E47554C204A554E4753454F4E47204F2D4520),
  (0x1181, 0x48414E47554C204A554E4753454F4E47204F2D594520),
  (0x1182, 0x48414E47554C204A554E4753454F4E47204F2D4F20),
  (0x1183, 0x48414E47554C204A554E4753454F4E47204F2D5520),
  (0x1184, 0x48414E47554C204A554E4753454F4E4720594F2D594120),
  (0x1185, 0x48414E47554C204A554E4753454F4E4720594F2D59414520),
  (0x1186, 0x48414E47554C204A554E4753454F4E4720594F2D59454F20),
  (0x1187, 0x48414E47554C204A554E4753454F4E4720594F2D4F20),
  (0x1188, 0x48414E47554C204A554E4753454F4E4720594F2D4920),
  (0x1189, 0x48414E47554C204A554E4753454F4E4720552D4120),
  (0x118A, 0x48414E47554C204A554E4753454F4E4720552D414520),
  (0x118B, 0x48414E47554C204A554E4753454F4E4720552D454F2D455520),
  (0x118C, 0x48414E47554C204A554E4753454F4E4720552D594520),
  (0x118D, 0x48414E47554C204A554E4753454F4E4720552D5520),
  (0x118E, 0x48414E47554C204A554E4753454F4E472059552D4120),
  (0x118F, 0x48414E47554C204A554E4753454F4E472059552D454F20),
  (0x1190, 0x48414E47554C204A554E4753454F4E472059552D4520),
  (0x1191, 0x48414E47554C204A554E4753454F4E472059552D59454F20),
  (0x1192, 0x48414E47554C204A554E4753454F4E472059552D594520),
  (0x1193, 0x48414E47554C204A554E4753454F4E472059552D5520),
  (0x1194, 0x48414E47554C204A554E4753454F4E472059552D4920),
  (0x1195, 0x48414E47554C204A554E4753454F4E472045552D5520),
  (0x1196, 0x48414E47554C204A554E4753454F4E472045552D455520),
  (0x1197, 0x48414E47554C204A554E4753454F4E472059492D5520),
  (0x1198, 0x48414E47554C204A554E4753454F4E4720492D4120),
  (0x1199, 0x48414E47554C204A554E4753454F4E4720492D594120),
  (0x119A, 0x48414E47554C204A554E4753454F4E4720492D4F20),
  (0x119B, 0x48414E47554C204A554E4753454F4E4720492D5520),
  (0x119C, 0x48414E47554C204A554E4753454F4E4720492D455520),
  (0x119D, 0x48414E47554C204A554E4753454F4E4720492D415241454120),
  (0x119E, 0x48414E47554C204A554E4753454F4E4720415241454120),
  (0x119F, 0x48414E47554C204A554E4753454F4E472041524145412D454F20),
  (0x11A0, 0x48414E47554C204A554E4753454F4E472041524145412D5520),
  (0x11A1, 0x48414E47554C204A554E4753454F4E472041524145412D4920),
  (0x11A2, 0x48414E47554C204A554E4753454F4E47205353414E47415241454120),
  (0x11A3, 0x48414E47554C204A554E4753454F4E4720412D455520),
  (0x11A4, 0x48414E47554C204A554E4753454F4E472059412D5520),
  (0x11A5, 0x48414E47554C204A554E4753454F4E472059454F2D594120),
  (0x11A6, 0x48414E47554C204A554E4753454F4E47204F2D594120),
  (0x11A7, 0x48414E47554C204A554E4753454F4E47204F2D59414520),
  (0x11A8, 0x48414E47554C204A4F4E4753454F4E47204B4959454F4B20),
  (0x11A9, 0x48414E47554C204A4F4E4753454F4E47205353414E474B4959454F4B20),
  (0x11AA, 0x48414E47554C204A4F4E4753454F4E47204B4959454F4B2D53494F5320),
  (0x11AB, 0x48414E47554C204A4F4E4753454F4E47204E4945554E20),
  (0x11AC, 0x48414E47554C204A4F4E4753454F4E47204E4945554E2D434945554320),
  (0x11AD, 0x48414E47554C204A4F4E4753454F4E47204E4945554E2D484945554820),
  (0x11AE, 0x48414E47554C204A4F4E4753454F4E472054494B45555420),
  (0x11AF, 0x48414E47554C204A4F4E4753454F4E4720524945554C20),
  (0x11B0, 0x48414E47554C204A4F4E4753454F4E4720524945554C2D4B4959454F4B20),
  (0x11B1, 0x48414E47554C204A4F4E4753454F4E4720524945554C2D4D4945554D20),
  (0x11B2, 0x48414E47554C204A4F4E4753454F4E4720524945554C2D504945555020),
  (0x11B3, 0x48414E47554C204A4F4E4753454F4E4720524945554C2D53494F5320),
  (0x11B4, 0x48414E47554C204A4F4E4753454F4E4720524945554C2D5448494555544820),
  (0x11B5, 0x48414E47554C204A4F4E4753454F4E4720524945554C2D5048494555504820),
  (0x11B6, 0x48414E47554C204A4F4E4753454F4E4720524945554C2D484945554820),
  (0x11B7, 0x48414E47554C204A4F4E4753454F4E47204D4945554D20),
  (0x11B8, 0x48414E47554C204A4F4E4753454F4E4720504945555020),
  (0x11B9, 0x48414E47554C204A4F4E4753454F4E472050494555502D53494F5320),
  (0x11BA, 0x48414E47554C204A4F4E4753454F4E472053494F5320),
  (0x11BB, 0x48414E47554C204A4F4E4753454F4E47205353414E4753494F5320)]
def names_60 : List (Nat × Nat) := [
  (0x11BC, 0x48414E47554C204A4F4E4753454F4E47204945554E4720),
  (0x11BD, 0x48414E47554C204A4F4E4753454F4E4720434945554320),
  (0x11BE, 0x48414E47554C204A4F4E4753454F4E47204348494555434820),
  (0x11BF, 0x48414E47554C204A4F4E4753454F4E47204B484945554B4820),
  (0x11C0, 0x48414E47554C204A4F4E4753454F4E47205448494555544820),
  (0x11C1, 0x48414E47554C204A4F4E4753454F4E47205048494555504820),
  (0x11C2, 0x48414E47554C204A4F4E4753454F4E4720484945554820),
  (0x11C3, 0x48414E47554C204A4F4E4753454F4E47204B4959454F4B2D524945554C20),
  (0x11C4, 0x48414E47554C204A4F4E4753454F4E47204B4959454F4B2D53494F532D4B4959454F4B20),
  (0x11C5, 0x48414E47554C204A4F4E4753454F4E47204E4945554E2D4B4959454F4B20),
  (0x11C6, 0x48414E47554C204A4F4E4753454F4E47204E4945554E2D54494B45555420),
  (0x11C7, 0x48414E47554C204A4F4E4753454F4E47204E4945554E2D53494F5320),
  (0x11C8, 0x48414E47554C204A4F4E4753454F4E47204E4945554E2D50414E53494F5320),
  (0x11C9, 0x48414E47554C204A4F4E4753454F4E47204E4945554E2D5448494555544820),
  (0x11CA, 0x48414E47554C204A4F4E4753454F4E472054494B4555542D4B4959454F4B20),
  (0x11CB, 0x48414E47554C204A4F4E4753454F4E472054494B4555542D524945554C20),
  (0x11CC, 0x48414E47554C204A4F4E4753454F4E4720524945554C2D4B4959454F4B2D53494F5320),
  (0x11CD, 0x48414E47554C204A4F4E4753454F4E4720524945554C2D4E4945554E20),
  (0x11CE, 0x48414E47554C204A4F4E4753454F4E4720524945554C2D54494B45555420),
  (0x11CF, 0x48414E47554C204A4F4E4753454F4E4720524945554C2D54494B4555542D484945554820),
  (0x11D0, 0x48414E47554C204A4F4E4753454F4E47205353414E47524945554C20),
  (0x11D1, 0x48414E47554C204A4F4E4753454F4E4720524945554C2D4D4945554D2D4B4959454F4B20),
  (0x11D2, 0x48414E47554C204A4F4E4753454F4E4720524945554C2D4D4945554D2D53494F5320),
  (0x11D3, 0x48414E47554C204A4F4E4753454F4E4720524945554C2D50494555502D53494F5320),
  (0x11D4, 0x48414E47554C204A4F4E4753454F4E4720524945554C2D50494555502D484945554820),
  (0x11D5, 0x48414E47554C204A4F4E4753454F4E4720524945554C2D4B415059454F554E504945555020),
  (0x11D6, 0x48414E47554C204A4F4E4753454F4E4720524945554C2D5353414E4753494F5320),
  (0x11D7, 0x48414E47554C204A4F4E4753454F4E4720524945554C2D50414E53494F5320),
  (0x11D8, 0x48414E47554C204A4F4E4753454F4E4720524945554C2D4B484945554B4820),
  (0x11D9, 0x48414E47554C204A4F4E4753454F4E4720524945554C2D59454F52494E484945554820),
  (0x11DA, 0x48414E47554C204A4F4E4753454F4E47204D4945554D2D4B4959454F4B20),
  (0x11DB, 0x48414E47554C204A4F4E4753454F4E47204D4945554D2D524945554C20),
  (0x11DC, 0x48414E47554C204A4F4E4753454F4E47204D4945554D2D504945555020),
  (0x11DD, 0x48414E47554C204A4F4E4753454F4E47204D4945554D2D53494F5320),
  (0x11DE, 0x48414E47554C204A4F4E4753454F4E47204D4945554D2D5353414E4753494F5320),
  (0x11DF, 0x48414E47554C204A4F4E4753454F4E47204D4945554D2D50414E53494F5320),
  (0x11E0, 0x48414E47554C204A4F4E4753454F4E47204D4945554D2D4348494555434820),
  (0x11E1, 0x48414E47554C204A4F4E4753454F4E47204D4945554D2D484945554820),
  (0x11E2, 0x48414E47554C204A4F4E4753454F4E47204B415059454F554E4D4945554D20),
  (0x11E3, 0x48414E47554C204A4F4E4753454F4E472050494555502D524945554C20),
  (0x11E4, 0x48414E47554C204A4F4E4753454F4E472050494555502D5048494555504820),
  (0x11E5, 0x48414E47554C204A4F4E4753454F4E472050494555502D484945554820),
  (0x11E6, 0x48414E47554C204A4F4E4753454F4E47204B415059454F554E504945555020),
  (0x11E7, 0x48414E47554C204A4F4E4753454F4E472053494F532D4B4959454F4B20),
  (0x11E8, 0x48414E47554C204A4F4E4753454F4E472053494F532D54494B45555420),
  (0x11E9, 0x48414E47554C204A4F4E4753454F4E472053494F532D524945554C20),
  (0x11EA, 0x48414E47554C204A4F4E4753454F4E472053494F532D504945555020),
  (0x11EB, 0x48414E47554C204A4F4E4753454F4E472050414E53494F5320),
  (0x11EC, 0x48414E47554C204A4F4E4753454F4E47204945554E472D4B4959454F4B20),
  (0x11ED, 0x48414E47554C204A4F4E4753454F4E47204945554E472D5353414E474B4959454F4B20),
  (0x11EE, 0x48414E47554C204A4F4E4753454F4E47205353414E474945554E4720),
  (0x11EF, 0x48414E47554C204A4F4E4753454F4E47204945554E472D4B484945554B4820),
  (0x11F0, 0x48414E47554C204A4F4E4753454F4E47205945534945554E4720),
  (0x11F1, 0x48414E47554C204A4F4E4753454F4E47205945534945554E472D53494F5320),
  (0x11F2, 0x48414E47554C204A4F4E4753454F4E47205945534945554E472D50414E53494F5320),
  (0x11F3, 0x48414E47554C204A4F4E4753454F4E4720504849455550482D504945555020),
  (0x11F4, 0x48414E47554C204A4F4E4753454F4E47204B415059454F554E5048494555504820),
  (0x11F5, 0x48414E47554C204A4F4E4753454F4E472048494555482D4E4945554E20),
  (0x11F6, 0x48414E47554C204A4F4E4753454F4E472048494555482D524945554C20),
  (0x11F7, 0x48414E47554C204A4F4E4753454F4E472048494555482D4D4945554D20),
  (0x11F8, 0x48414E47554C204A4F4E4753454F4E472048494555482D504945555020),
  (0x11F9, 0x48414E47554C204A4F4E4753454F4E472059454F52494E484945554820),
  (0x11FA, 0x48414E47554C204A4F4E4753454F4E47204B4959454F4B2D4E4945554E20),
  (0x11FB, 0x48414E47554C204A4F4E4753454F4E47204B4959454F4B2D504945555020)]
def names_61 : List (Nat × Nat) := [
  (0x11FC, 0x48414E47554C204A4F4E4753454F4E47204B4959454F4B2D4348494555434820),
  (0x11FD, 0x48414E47554C204A4F4E4753454F4E47204B4959454F4B2D4B484945554B4820),
  (0x11FE, 0x48414E47554C204A4F4E4753454F4E47204B4959454F4B2D484945554820),
  (0x11FF, 0x48414E47554C204A4F4E4753454F4E47205353414E474E4945554E20),
  (0x1200, 0x455448494F5049432053594C4C41424C4520484120),
  (0x1201, 0x455448494F5049432053594C4C41424C4520485520),
  (0x1202, 0x455448494F5049432053594C4C41424C4520484920),
  (0x1203, 0x455448494F5049432053594C4C41424C452048414120),
  (0x1204, 0x455448494F5049432053594C4C41424C452048454520),
  (0x1205, 0x455448494F5049432053594C4C41424C4520484520),
  (0x1206, 0x455448494F5049432053594C4C41424C4520484F20),
  (0x1207, 0x455448494F5049432053594C4C41424C4520484F4120),
  (0x1208, 0x455448494F5049432053594C4C41424C45204C4120),
  (0x1209, 0x455448494F5049432053594C4C41424C45204C5520),
  (0x120A, 0x455448494F5049432053594C4C41424C45204C4920),
  (0x120B, 0x455448494F5049432053594C4C41424C45204C414120),
  (0x120C, 0x455448494F5049432053594C4C41424C45204C454520),
  (0x120D, 0x455448494F5049432053594C4C41424C45204C4520),
  (0x120E, 0x455448494F5049432053594C4C41424C45204C4F20),
  (0x120F, 0x455448494F5049432053594C4C41424C45204C574120),
  (0x1210, 0x455448494F5049432053594C4C41424C452048484120),
  (0x1211, 0x455448494F5049432053594C4C41424C452048485520),
  (0x1212, 0x455448494F5049432053594C4C41424C452048484920),
  (0x1213, 0x455448494F5049432053594C4C41424C45204848414120),
  (0x1214, 0x455448494F5049432053594C4C41424C45204848454520),
  (0x1215, 0x455448494F5049432053594C4C41424C452048484520),
  (0x1216, 0x455448494F5049432053594C4C41424C452048484F20),
  (0x1217, 0x455448494F5049432053594C4C41424C45204848574120),
  (0x1218, 0x455448494F5049432053594C4C41424C45204D4120),
  (0x1219, 0x455448494F5049432053594C4C41424C45204D5520),
  (0x121A, 0x455448494F5049432053594C4C41424C45204D4920),
  (0x121B, 0x455448494F5049432053594C4C41424C45204D414120),
  (0x121C, 0x455448494F5049432053594C4C41424C45204D454520),
  (0x121D, 0x455448494F5049432053594C4C41424C45204D4520),
  (0x121E, 0x455448494F5049432053594C4C41424C45204D4F20),
  (0x121F, 0x455448494F5049432053594C4C41424C45204D574120),
  (0x1220, 0x455448494F5049432053594C4C41424C4520535A4120),
  (0x1221, 0x455448494F5049432053594C4C41424C4520535A5520),
  (0x1222, 0x455448494F5049432053594C4C41424C4520535A4920),
  (0x1223, 0x455448494F5049432053594C4C41424C4520535A414120),
  (0x1224, 0x455448494F5049432053594C4C41424C4520535A454520),
  (0x1225, 0x455448494F5049432053594C4C41424C4520535A4520),
  (0x1226, 0x455448494F5049432053594C4C41424C4520535A4F20),
  (0x1227, 0x455448494F5049432053594C4C41424C4520535A574120),
  (0x1228, 0x455448494F5049432053594C4C41424C4520524120),
  (0x1229, 0x455448494F5049432053594C4C41424C4520525520),
  (0x122A, 0x455448494F5049432053594C4C41424C4520524920),
  (0x122B, 0x455448494F5049432053594C4C41424C452052414120),
  (0x122C, 0x455448494F5049432053594C4C41424C452052454520),
  (0x122D, 0x455448494F5049432053594C4C41424C4520524520),
  (0x122E, 0x455448494F5049432053594C4C41424C4520524F20),
  (0x122F, 0x455448494F5049432053594C4C41424C452052574120),
  (0x1230, 0x455448494F5049432053594C4C41424C4520534120),
  (0x1231, 0x455448494F5049432053594C4C41424C4520535520),
  (0x1232, 0x455448494F5049432053594C4C41424C4520534920),
  (0x1233, 0x455448494F5049432053594C4C41424C452053414120),
  (0x1234, 0x455448494F5049432053594C4C41424C452053454520),
  (0x1235, 0x455448494F5049432053594C4C41424C4520534520),
  (0x1236, 0x455448494F5049432053594C4C41424C4520534F20),
  (0x1237, 0x455448494F5049432053594C4C41424C452053574120),
  (0x1238, 0x455448494F5049432053594C4C41424C452053484120),
  (0x1239, 0x455448494F5049432053594C4C41424C452053485520),
  (0x123A, 0x455448494F5049432053594C4C41424C452053484920),
  (0x123B, 0x455448494F5049432053594C4C41424C45205348414120)]
def names_62 : List (Nat × Nat) := [
  (0x123C, 0x455448494F5049432053594C4C41424C45205348454520),
  (0x123D, 0x455448494F5049432053594C4C41424C452053484520),
  (0x123E, 0x455448494F5049432053594C4C41424C452053484F20),
  (0x123F, 0x455448494F5049432053594C4C41424C45205348574120),
  (0x1240, 0x455448494F5049432053594C4C41424C4520514120),
  (0x1241, 0x455448494F5049432053594C4C41424C4520515520),
  (0x1242, 0x455448494F5049432053594C4C41424C4520514920),
  (0x1243, 0x455448494F5049432053594C4C41424C452051414120),
  (0x1244, 0x455448494F5049432053594C4C41424C452051454520),
  (0x1245, 0x455448494F5049432053594C4C41424C4520514520),
  (0x1246, 0x455448494F5049432053594C4C41424C4520514F20),
  (0x1247, 0x455448494F5049432053594C4C41424C4520514F4120),
  (0x1248, 0x455448494F5049432053594C4C41424C452051574120),
  (0x124A, 0x455448494F5049432053594C4C41424C452051574920),
  (0x124B, 0x455448494F5049432053594C4C41424C45205157414120),
  (0x124C, 0x455448494F5049432053594C4C41424C45205157454520),
  (0x124D, 0x455448494F5049432053594C4C41424C452051574520),
  (0x1250, 0x455448494F5049432053594C4C41424C452051484120),
  (0x1251, 0x455448494F5049432053594C4C41424C452051485520),
  (0x1252, 0x455448494F5049432053594C4C41424C452051484920),
  (0x1253, 0x455448494F5049432053594C4C41424C45205148414120),
  (0x1254, 0x455448494F5049432053594C4C41424C45205148454520),
  (0x1255, 0x455448494F5049432053594C4C41424C452051484520),
  (0x1256, 0x455448494F5049432053594C4C41424C452051484F20),
  (0x1258, 0x455448494F5049432053594C4C41424C45205148574120),
  (0x125A, 0x455448494F5049432053594C4C41424C45205148574920),
  (0x125B, 0x455448494F5049432053594C4C41424C4520514857414120),
  (0x125C, 0x455448494F5049432053594C4C41424C4520514857454520),
  (0x125D, 0x455448494F5049432053594C4C41424C45205148574520),
  (0x1260, 0x455448494F5049432053594C4C41424C4520424120),
  (0x1261, 0x455448494F5049432053594C4C41424C4520425520),
  (0x1262, 0x455448494F5049432053594C4C41424C4520424920),
  (0x1263, 0x455448494F5049432053594C4C41424C452042414120),
  (0x1264, 0x455448494F5049432053594C4C41424C452042454520),
  (0x1265, 0x455448494F5049432053594C4C41424C4520424520),
  (0x1266, 0x455448494F5049432053594C4C41424C4520424F20),
  (0x1267, 0x455448494F5049432053594C4C41424C452042574120),
  (0x1268, 0x455448494F5049432053594C4C41424C4520564120),
  (0x1269, 0x455448494F5049432053594C4C41424C4520565520),
  (0x126A, 0x455448494F5049432053594C4C41424C4520564920),
  (0x126B, 0x455448494F5049432053594C4C41424C452056414120),
  (0x126C, 0x455448494F5049432053594C4C41424C452056454520),
  (0x126D, 0x455448494F5049432053594C4C41424C4520564520),
  (0x126E, 0x455448494F5049432053594C4C41424C4520564F20),
  (0x126F, 0x455448494F5049432053594C4C41424C452056574120),
  (0x1270, 0x455448494F5049432053594C4C41424C4520544120),
  (0x1271, 0x455448494F5049432053594C4C41424C4520545520),
  (0x1272, 0x455448494F5049432053594C4C41424C4520544920),
  (0x1273, 0x455448494F5049432053594C4C41424C452054414120),
  (0x1274, 0x455448494F5049432053594C4C41424C452054454520),
  (0x1275, 0x455448494F5049432053594C4C41424C4520544520),
  (0x1276, 0x455448494F5049432053594C4C41424C4520544F20),
  (0x1277, 0x455448494F5049432053594C4C41424C452054574120),
  (0x1278, 0x455448494F5049432053594C4C41424C4520434120),
  (0x1279, 0x455448494F5049432053594C4C41424C4520435520),
  (0x127A, 0x455448494F5049432053594C4C41424C4520434920),
  (0x127B, 0x455448494F5049432053594C4C41424C452043414120),
  (0x127C, 0x455448494F5049432053594C4C41424C452043454520),
  (0x127D, 0x455448494F5049432053594C4C41424C4520434520),
  (0x127E, 0x455448494F5049432053594C4C41424C4520434F20),
  (0x127F, 0x455448494F5049432053594C4C41424C452043574120),
  (0x1280, 0x455448494F5049432053594C4C41424C4520584120),
  (0x1281, 0x455448494F5049432053594C4C41424C4520585520),
  (0x1282, 0x455448494F5049432053594C4C41424C4520584920)]
def names_63 : List (Nat × Nat) := [
  (0x1283, 0x455448494F5049432053594C4C41424C452058414120),
  (0x1284, 0x455448494F5049432053594C4C41424C452058454520),
  (0x1285, 0x455448494F5049432053594C4C41424C4520584520),
  (0x1286, 0x455448494F5049432053594C4C41424C4520584F20),
  (0x1287, 0x455448494F5049432053594C4C41424C4520584F4120),
  (0x1288, 0x455448494F5049432053594C4C41424C452058574120),
  (0x128A, 0x455448494F5049432053594C4C41424C452058574920),
  (0x128B, 0x455448494F5049432053594C4C41424C45205857414120),
  (0x128C, 0x455448494F5049432053594C4C41424C45205857454520),
  (0x128D, 0x455448494F5049432053594C4C41424C452058574520),
  (0x1290, 0x455448494F5049432053594C4C41424C45204E4120),
  (0x1291, 0x455448494F5049432053594C4C41424C45204E5520),
  (0x1292, 0x455448494F5049432053594C4C41424C45204E4920),
  (0x1293, 0x455448494F5049432053594C4C41424C45204E414120),
  (0x1294, 0x455448494F5049432053594C4C41424C45204E454520),
  (0x1295, 0x455448494F5049432053594C4C41424C45204E4520),
  (0x1296, 0x455448494F5049432053594C4C41424C45204E4F20),
  (0x1297, 0x455448494F5049432053594C4C41424C45204E574120),
  (0x1298, 0x455448494F5049432053594C4C41424C45204E594120),
  (0x1299, 0x455448494F5049432053594C4C41424C45204E595520),
  (0x129A, 0x455448494F5049432053594C4C41424C45204E594920),
  (0x129B, 0x455448494F5049432053594C4C41424C45204E59414120),
  (0x129C, 0x455448494F5049432053594C4C41424C45204E59454520),
  (0x129D, 0x455448494F5049432053594C4C41424C45204E594520),
  (0x129E, 0x455448494F5049432053594C4C41424C45204E594F20),
  (0x129F, 0x455448494F5049432053594C4C41424C45204E59574120),
  (0x12A0, 0x455448494F5049432053594C4C41424C4520474C4F5454414C204120),
  (0x12A1, 0x455448494F5049432053594C4C41424C4520474C4F5454414C205520),
  (0x12A2, 0x455448494F5049432053594C4C41424C4520474C4F5454414C204920),
  (0x12A3, 0x455448494F5049432053594C4C41424C4520474C4F5454414C20414120),
  (0x12A4, 0x455448494F5049432053594C4C41424C4520474C4F5454414C20454520),
  (0x12A5, 0x455448494F5049432053594C4C41424C4520474C4F5454414C204520),
  (0x12A6, 0x455448494F5049432053594C4C41424C4520474C4F5454414C204F20),
  (0x12A7, 0x455448494F5049432053594C4C41424C4520474C4F5454414C20574120),
  (0x12A8, 0x455448494F5049432053594C4C41424C45204B4120),
  (0x12A9, 0x455448494F5049432053594C4C41424C45204B5520),
  (0x12AA, 0x455448494F5049432053594C4C41424C45204B4920),
  (0x12AB, 0x455448494F5049432053594C4C41424C45204B414120),
  (0x12AC, 0x455448494F5049432053594C4C41424C45204B454520),
  (0x12AD, 0x455448494F5049432053594C4C41424C45204B4520),
  (0x12AE, 0x455448494F5049432053594C4C41424C45204B4F20),
  (0x12AF, 0x455448494F5049432053594C4C41424C45204B4F4120),
  (0x12B0, 0x455448494F5049432053594C4C41424C45204B574120),
  (0x12B2, 0x455448494F5049432053594C4C41424C45204B574920),
  (0x12B3, 0x455448494F5049432053594C4C41424C45204B57414120),
  (0x12B4, 0x455448494F5049432053594C4C41424C45204B57454520),
  (0x12B5, 0x455448494F5049432053594C4C41424C45204B574520),
  (0x12B8, 0x455448494F5049432053594C4C41424C45204B584120),
  (0x12B9, 0x455448494F5049432053594C4C41424C45204B585520),
  (0x12BA, 0x455448494F5049432053594C4C41424C45204B584920),
  (0x12BB, 0x455448494F5049432053594C4C41424C45204B58414120),
  (0x12BC, 0x455448494F5049432053594C4C41424C45204B58454520),
  (0x12BD, 0x455448494F5049432053594C4C41424C45204B584520),
  (0x12BE, 0x455448494F5049432053594C4C41424C45204B584F20),
  (0x12C0, 0x455448494F5049432053594C4C41424C45204B58574120),
  (0x12C2, 0x455448494F5049432053594C4C41424C45204B58574920),
  (0x12C3, 0x455448494F5049432053594C4C41424C45204B5857414120),
  (0x12C4, 0x455448494F5049432053594C4C41424C45204B5857454520),
  (0x12C5, 0x455448494F5049432053594C4C41424C45204B58574520),
  (0x12C8, 0x455448494F5049432053594C4C41424C4520574120),
  (0x12C9, 0x455448494F5049432053594C4C41424C4520575520),
  (0x12CA, 0x455448494F5049432053594C4C41424C4520574920),
  (0x12CB, 0x455448494F5049432053594C4C41424C452057414120),
  (0x12CC, 0x455448494F5049432053594C4C41424C452057454520)]
def names_64 : List (Nat × Nat) := [
  (0x12CD, 0x455448494F5049432053594C4C41424C4520574520),
  (0x12CE, 0x455448494F5049432053594C4C41424C4520574F20),
  (0x12CF, 0x455448494F5049432053594C4C41424C4520574F4120),
  (0x12D0, 0x455448494F5049432053594C4C41424C452050484152594E4745414C204120),
  (0x12D1, 0x455448494F5049432053594C4C41424C452050484152594E4745414C205520),
  (0x12D2, 0x455448494F5049432053594C4C41424C452050484152594E4745414C204920),
  (0x12D3, 0x455448494F5049432053594C4C41424C452050484152594E4745414C20414120),
  (0x12D4, 0x455448494F5049432053594C4C41424C452050484152594E4745414C20454520),
  (0x12D5, 0x455448494F5049432053594C4C41424C452050484152594E4745414C204520),
  (0x12D6, 0x455448494F5049432053594C4C41424C452050484152594E4745414C204F20),
  (0x12D8, 0x455448494F5049432053594C4C41424C45205A4120),
  (0x12D9, 0x455448494F5049432053594C4C41424C45205A5520),
  (0x12DA, 0x455448494F5049432053594C4C41424C45205A4920),
  (0x12DB, 0x455448494F5049432053594C4C41424C45205A414120),
  (0x12DC, 0x455448494F5049432053594C4C41424C45205A454520),
  (0x12DD, 0x455448494F5049432053594C4C41424C45205A4520),
  (0x12DE, 0x455448494F5049432053594C4C41424C45205A4F20),
  (0x12DF, 0x455448494F5049432053594C4C41424C45205A574120),
  (0x12E0, 0x455448494F5049432053594C4C41424C45205A484120),
  (0x12E1, 0x455448494F5049432053594C4C41424C45205A485520),
  (0x12E2, 0x455448494F5049432053594C4C41424C45205A484920),
  (0x12E3, 0x455448494F5049432053594C4C41424C45205A48414120),
  (0x12E4, 0x455448494F5049432053594C4C41424C45205A48454520),
  (0x12E5, 0x455448494F5049432053594C4C41424C45205A484520),
  (0x12E6, 0x455448494F5049432053594C4C41424C45205A484F20),
  (0x12E7, 0x455448494F5049432053594C4C41424C45205A48574120),
  (0x12E8, 0x455448494F5049432053594C4C41424C4520594120),
  (0x12E9, 0x455448494F5049432053594C4C41424C4520595520),
  (0x12EA, 0x455448494F5049432053594C4C41424C4520594920),
  (0x12EB, 0x455448494F5049432053594C4C41424C452059414120),
  (0x12EC, 0x455448494F5049432053594C4C41424C452059454520),
  (0x12ED, 0x455448494F5049432053594C4C41424C4520594520),
  (0x12EE, 0x455448494F5049432053594C4C41424C4520594F20),
  (0x12EF, 0x455448494F5049432053594C4C41424C4520594F4120),
  (0x12F0, 0x455448494F5049432053594C4C41424C4520444120),
  (0x12F1, 0x455448494F5049432053594C4C41424C4520445520),
  (0x12F2, 0x455448494F5049432053594C4C41424C4520444920),
  (0x12F3, 0x455448494F5049432053594C4C41424C452044414120),
  (0x12F4, 0x455448494F5049432053594C4C41424C452044454520),
  (0x12F5, 0x455448494F5049432053594C4C41424C4520444520),
  (0x12F6, 0x455448494F5049432053594C4C41424C4520444F20),
  (0x12F7, 0x455448494F5049432053594C4C41424C452044574120),
  (0x12F8, 0x455448494F5049432053594C4C41424C452044444120),
  (0x12F9, 0x455448494F5049432053594C4C41424C452044445520),
  (0x12FA, 0x455448494F5049432053594C4C41424C452044444920),
  (0x12FB, 0x455448494F5049432053594C4C41424C45204444414120),
  (0x12FC, 0x455448494F5049432053594C4C41424C45204444454520),
  (0x12FD, 0x455448494F5049432053594C4C41424C452044444520),
  (0x12FE, 0x455448494F5049432053594C4C41424C452044444F20),
  (0x12FF, 0x455448494F5049432053594C4C41424C45204444574120),
  (0x1300, 0x455448494F5049432053594C4C41424C45204A4120),
  (0x1301, 0x455448494F5049432053594C4C41424C45204A5520),
  (0x1302, 0x455448494F5049432053594C4C41424C45204A4920),
  (0x1303, 0x455448494F5049432053594C4C41424C45204A414120),
  (0x1304, 0x455448494F5049432053594C4C41424C45204A454520),
  (0x1305, 0x455448494F5049432053594C4C41424C45204A4520),
  (0x1306, 0x455448494F5049432053594C4C41424C45204A4F20),
  (0x1307, 0x455448494F5049432053594C4C41424C45204A574120),
  (0x1308, 0x455448494F5049432053594C4C41424C4520474120),
  (0x1309, 0x455448494F5049432053594C4C41424C4520475520),
  (0x130A, 0x455448494F5049432053594C4C41424C4520474920),
  (0x130B, 0x455448494F5049432053594C4C41424C452047414120),
  (0x130C, 0x455448494F5049432053594C4C41424C452047454520),
  (0x130D, 0x455448494F5049432053594C4C41424C4520474520)]
def names_65 : List (Nat × Nat) := [
  (0x130E, 0x455448494F5049432053594C4C41424C4520474F20),
  (0x130F, 0x455448494F5049432053594C4C41424C4520474F4120),
  (0x1310, 0x455448494F5049432053594C4C41424C452047574120),
  (0x1312, 0x455448494F5049432053594C4C41424C452047574920),
  (0x1313, 0x455448494F5049432053594C4C41424C45204757414120),
  (0x1314, 0x455448494F5049432053594C4C41424C45204757454520),
  (0x1315, 0x455448494F5049432053594C4C41424C452047574520),
  (0x1318, 0x455448494F5049432053594C4C41424C452047474120),
  (0x1319, 0x455448494F5049432053594C4C41424C452047475520),
  (0x131A, 0x455448494F5049432053594C4C41424C452047474920),
  (0x131B, 0x455448494F5049432053594C4C41424C45204747414120),
  (0x131C, 0x455448494F5049432053594C4C41424C45204747454520),
  (0x131D, 0x455448494F5049432053594C4C41424C452047474520),
  (0x131E, 0x455448494F5049432053594C4C41424C452047474F20),
  (0x131F, 0x455448494F5049432053594C4C41424C4520474757414120),
  (0x1320, 0x455448494F5049432053594C4C41424C452054484120),
  (0x1321, 0x455448494F5049432053594C4C41424C452054485520),
  (0x1322, 0x455448494F5049432053594C4C41424C452054484920),
  (0x1323, 0x455448494F5049432053594C4C41424C45205448414120),
  (0x1324, 0x455448494F5049432053594C4C41424C45205448454520),
  (0x1325, 0x455448494F5049432053594C4C41424C452054484520),
  (0x1326, 0x455448494F5049432053594C4C41424C452054484F20),
  (0x1327, 0x455448494F5049432053594C4C41424C45205448574120),
  (0x1328, 0x455448494F5049432053594C4C41424C452043484120),
  (0x1329, 0x455448494F5049432053594C4C41424C452043485520),
  (0x132A, 0x455448494F5049432053594C4C41424C452043484920),
  (0x132B, 0x455448494F5049432053594C4C41424C45204348414120),
  (0x132C, 0x455448494F5049432053594C4C41424C45204348454520),
  (0x132D, 0x455448494F5049432053594C4C41424C452043484520),
  (0x132E, 0x455448494F5049432053594C4C41424C452043484F20),
  (0x132F, 0x455448494F5049432053594C4C41424C45204348574120),
  (0x1330, 0x455448494F5049432053594C4C41424C452050484120),
  (0x1331, 0x455448494F5049432053594C4C41424C452050485520),
  (0x1332, 0x455448494F5049432053594C4C41424C452050484920),
  (0x1333, 0x455448494F5049432053594C4C41424C45205048414120),
  (0x1334, 0x455448494F5049432053594C4C41424C45205048454520),
  (0x1335, 0x455448494F5049432053594C4C41424C452050484520),
  (0x1336, 0x455448494F5049432053594C4C41424C452050484F20),
  (0x1337, 0x455448494F5049432053594C4C41424C45205048574120),
  (0x1338, 0x455448494F5049432053594C4C41424C452054534120),
  (0x1339, 0x455448494F5049432053594C4C41424C452054535520),
  (0x133A, 0x455448494F5049432053594C4C41424C452054534920),
  (0x133B, 0x455448494F5049432053594C4C41424C45205453414120),
  (0x133C, 0x455448494F5049432053594C4C41424C45205453454520),
  (0x133D, 0x455448494F5049432053594C4C41424C452054534520),
  (0x133E, 0x455448494F5049432053594C4C41424C452054534F20),
  (0x133F, 0x455448494F5049432053594C4C41424C45205453574120),
  (0x1340, 0x455448494F5049432053594C4C41424C4520545A4120),
  (0x1341, 0x455448494F5049432053594C4C41424C4520545A5520),
  (0x1342, 0x455448494F5049432053594C4C41424C4520545A4920),
  (0x1343, 0x455448494F5049432053594C4C41424C4520545A414120),
  (0x1344, 0x455448494F5049432053594C4C41424C4520545A454520),
  (0x1345, 0x455448494F5049432053594C4C41424C4520545A4520),
  (0x1346, 0x455448494F5049432053594C4C41424C4520545A4F20),
  (0x1347, 0x455448494F5049432053594C4C41424C4520545A4F4120),
  (0x1348, 0x455448494F5049432053594C4C41424C4520464120),
  (0x1349, 0x455448494F5049432053594C4C41424C4520465520),
  (0x134A, 0x455448494F5049432053594C4C41424C4520464920),
  (0x134B, 0x455448494F5049432053594C4C41424C452046414120),
  (0x134C, 0x455448494F5049432053594C4C41424C452046454520),
  (0x134D, 0x455448494F5049432053594C4C41424C4520464520),
  (0x134E, 0x455448494F5049432053594C4C41424C4520464F20),
  (0x134F, 0x455448494F5049432053594C4C41424C452046574120),
  (0x1350, 0x455448494F5049432053594C4C41424C4520504120)]
def names_66 : List (Nat × Nat) := [
  (0x1351, 0x455448494F5049432053594C4C41424C4520505520),
  (0x1352, 0x455448494F5049432053594C4C41424C4520504920),
  (0x1353, 0x455448494F5049432053594C4C41424C452050414120),
  (0x1354, 0x455448494F5049432053594C4C41424C452050454520),
  (0x1355, 0x455448494F5049432053594C4C41424C4520504520),
  (0x1356, 0x455448494F5049432053594C4C41424C4520504F20),
  (0x1357, 0x455448494F5049432053594C4C41424C452050574120),
  (0x1358, 0x455448494F5049432053594C4C41424C452052594120),
  (0x1359, 0x455448494F5049432053594C4C41424C45204D594120),
  (0x135A, 0x455448494F5049432053594C4C41424C452046594120),
  (0x135D, 0x455448494F50494320434F4D42494E494E472047454D494E4154494F4E20414E4420564F57454C204C454E475448204D41524B20),
  (0x135E, 0x455448494F50494320434F4D42494E494E4720564F57454C204C454E475448204D41524B20),
  (0x135F, 0x455448494F50494320434F4D42494E494E472047454D494E4154494F4E204D41524B20),
  (0x1360, 0x455448494F5049432053454354494F4E204D41524B20),
  (0x1361, 0x455448494F50494320574F5244535041434520),
  (0x1362, 0x455448494F5049432046554C4C2053544F5020),
  (0x1363, 0x455448494F50494320434F4D4D4120),
  (0x1364, 0x455448494F5049432053454D49434F4C4F4E20),
  (0x1365, 0x455448494F50494320434F4C4F4E20),
  (0x1366, 0x455448494F504943205052454641434520434F4C4F4E20),
  (0x1367, 0x455448494F504943205155455354494F4E204D41524B20),
  (0x1368, 0x455448494F5049432050415241475241504820534550415241544F5220),
  (0x1369, 0x455448494F504943204449474954204F4E4520),
  (0x136A, 0x455448494F5049432044494749542054574F20),
  (0x136B, 0x455448494F50494320444947495420544852454520),
  (0x136C, 0x455448494F50494320444947495420464F555220),
  (0x136D, 0x455448494F504943204449474954204649564520),
  (0x136E, 0x455448494F5049432044494749542053495820),
  (0x136F, 0x455448494F50494320444947495420534556454E20),
  (0x1370, 0x455448494F50494320444947495420454947485420),
  (0x1371, 0x455448494F504943204449474954204E494E4520),
  (0x1372, 0x455448494F504943204E554D4245522054454E20),
  (0x1373, 0x455448494F504943204E554D424552205457454E545920),
  (0x1374, 0x455448494F504943204E554D4245522054484952545920),
  (0x1375, 0x455448494F504943204E554D42455220464F52545920),
  (0x1376, 0x455448494F504943204E554D42455220464946545920),
  (0x1377, 0x455448494F504943204E554D42455220534958545920),
  (0x1378, 0x455448494F504943204E554D42455220534556454E545920),
  (0x1379, 0x455448494F504943204E554D4245522045494748545920),
  (0x137A, 0x455448494F504943204E554D424552204E494E45545920),
  (0x137B, 0x455448494F504943204E554D4245522048554E4452454420),
  (0x137C, 0x455448494F504943204E554D4245522054454E2054484F5553414E4420),
  (0x1380, 0x455448494F5049432053594C4C41424C4520534542415442454954204D574120),
  (0x1381, 0x455448494F5049432053594C4C41424C45204D574920),
  (0x1382, 0x455448494F5049432053594C4C41424C45204D57454520),
  (0x1383, 0x455448494F5049432053594C4C41424C45204D574520),
  (0x1384, 0x455448494F5049432053594C4C41424C45205345424154424549542042574120),
  (0x1385, 0x455448494F5049432053594C4C41424C452042574920),
  (0x1386, 0x455448494F5049432053594C4C41424C45204257454520),
  (0x1387, 0x455448494F5049432053594C4C41424C452042574520),
  (0x1388, 0x455448494F5049432053594C4C41424C45205345424154424549542046574120),
  (0x1389, 0x455448494F5049432053594C4C41424C452046574920),
  (0x138A, 0x455448494F5049432053594C4C41424C45204657454520),
  (0x138B, 0x455448494F5049432053594C4C41424C452046574520),
  (0x138C, 0x455448494F5049432053594C4C41424C45205345424154424549542050574120),
  (0x138D, 0x455448494F5049432053594C4C41424C452050574920),
  (0x138E, 0x455448494F5049432053594C4C41424C45205057454520),
  (0x138F, 0x455448494F5049432053594C4C41424C452050574520),
  (0x1390, 0x455448494F50494320544F4E414C204D41524B2059495A455420),
  (0x1391, 0x455448494F50494320544F4E414C204D41524B20444552455420),
  (0x1392, 0x455448494F50494320544F4E414C204D41524B2052494B52494B20),
  (0x1393, 0x455448494F50494320544F4E414C204D41524B2053484F52542052494B52494B20),
  (0x1394, 0x455448494F50494320544F4E414C204D41524B20444946415420),
  (0x1395, 0x455448494F50494320544F4E414C204D41524B204B454E415420)]
def names_67 : List (Nat × Nat) := [
  (0x1396, 0x455448494F50494320544F4E414C204D41524B2043484952455420),
  (0x1397, 0x455448494F50494320544F4E414C204D41524B20484944455420),
  (0x1398, 0x455448494F50494320544F4E414C204D41524B2044455245542D484944455420),
  (0x1399, 0x455448494F50494320544F4E414C204D41524B204B55525420),
  (0x13A0, 0x434845524F4B4545204C4554544552204120),
  (0x13A1, 0x434845524F4B4545204C4554544552204520),
  (0x13A2, 0x434845524F4B4545204C4554544552204920),
  (0x13A3, 0x434845524F4B4545204C4554544552204F20),
  (0x13A4, 0x434845524F4B4545204C4554544552205520),
  (0x13A5, 0x434845524F4B4545204C4554544552205620),
  (0x13A6, 0x434845524F4B4545204C455454455220474120),
  (0x13A7, 0x434845524F4B4545204C4554544552204B4120),
  (0x13A8, 0x434845524F4B4545204C455454455220474520),
  (0x13A9, 0x434845524F4B4545204C455454455220474920),
  (0x13AA, 0x434845524F4B4545204C455454455220474F20),
  (0x13AB, 0x434845524F4B4545204C455454455220475520),
  (0x13AC, 0x434845524F4B4545204C455454455220475620),
  (0x13AD, 0x434845524F4B4545204C455454455220484120),
  (0x13AE, 0x434845524F4B4545204C455454455220484520),
  (0x13AF, 0x434845524F4B4545204C455454455220484920),
  (0x13B0, 0x434845524F4B4545204C455454455220484F20),
  (0x13B1, 0x434845524F4B4545204C455454455220485520),
  (0x13B2, 0x434845524F4B4545204C455454455220485620),
  (0x13B3, 0x434845524F4B4545204C4554544552204C4120),
  (0x13B4, 0x434845524F4B4545204C4554544552204C4520),
  (0x13B5, 0x434845524F4B4545204C4554544552204C4920),
  (0x13B6, 0x434845524F4B4545204C4554544552204C4F20),
  (0x13B7, 0x434845524F4B4545204C4554544552204C5520),
  (0x13B8, 0x434845524F4B4545204C4554544552204C5620),
  (0x13B9, 0x434845524F4B4545204C4554544552204D4120),
  (0x13BA, 0x434845524F4B4545204C4554544552204D4520),
  (0x13BB, 0x434845524F4B4545204C4554544552204D4920),
  (0x13BC, 0x434845524F4B4545204C4554544552204D4F20),
  (0x13BD, 0x434845524F4B4545204C4554544552204D5520),
  (0x13BE, 0x434845524F4B4545204C4554544552204E4120),
  (0x13BF, 0x434845524F4B4545204C455454455220484E4120),
  (0x13C0, 0x434845524F4B4545204C4554544552204E414820),
  (0x13C1, 0x434845524F4B4545204C4554544552204E4520),
  (0x13C2, 0x434845524F4B4545204C4554544552204E4920),
  (0x13C3, 0x434845524F4B4545204C4554544552204E4F20),
  (0x13C4, 0x434845524F4B4545204C4554544552204E5520),
  (0x13C5, 0x434845524F4B4545204C4554544552204E5620),
  (0x13C6, 0x434845524F4B4545204C45545445522051554120),
  (0x13C7, 0x434845524F4B4545204C45545445522051554520),
  (0x13C8, 0x434845524F4B4545204C45545445522051554920),
  (0x13C9, 0x434845524F4B4545204C45545445522051554F20),
  (0x13CA, 0x434845524F4B4545204C45545445522051555520),
  (0x13CB, 0x434845524F4B4545204C45545445522051555620),
  (0x13CC, 0x434845524F4B4545204C455454455220534120),
  (0x13CD, 0x434845524F4B4545204C4554544552205320),
  (0x13CE, 0x434845524F4B4545204C455454455220534520),
  (0x13CF, 0x434845524F4B4545204C455454455220534920),
  (0x13D0, 0x434845524F4B4545204C455454455220534F20),
  (0x13D1, 0x434845524F4B4545204C455454455220535520),
  (0x13D2, 0x434845524F4B4545204C455454455220535620),
  (0x13D3, 0x434845524F4B4545204C455454455220444120),
  (0x13D4, 0x434845524F4B4545204C455454455220544120),
  (0x13D5, 0x434845524F4B4545204C455454455220444520),
  (0x13D6, 0x434845524F4B4545204C455454455220544520),
  (0x13D7, 0x434845524F4B4545204C455454455220444920),
  (0x13D8, 0x434845524F4B4545204C455454455220544920),
  (0x13D9, 0x434845524F4B4545204C455454455220444F20),
  (0x13DA, 0x434845524F4B4545204C455454455220445520),
  (0x13DB, 0x434845524F4B4545204C455454455220445620)]
def names_68 : List (Nat × Nat) := [
  (0x13DC, 0x434845524F4B4545204C455454455220444C4120),
  (0x13DD, 0x434845524F4B4545204C455454455220544C4120),
  (0x13DE, 0x434845524F4B4545204C455454455220544C4520),
  (0x13DF, 0x434845524F4B4545204C455454455220544C4920),
  (0x13E0, 0x434845524F4B4545204C455454455220544C4F20),
  (0x13E1, 0x434845524F4B4545204C455454455220544C5520),
  (0x13E2, 0x434845524F4B4545204C455454455220544C5620),
  (0x13E3, 0x434845524F4B4545204C45545445522054534120),
  (0x13E4, 0x434845524F4B4545204C45545445522054534520),
  (0x13E5, 0x434845524F4B4545204C45545445522054534920),
  (0x13E6, 0x434845524F4B4545204C45545445522054534F20),
  (0x13E7, 0x434845524F4B4545204C45545445522054535520),
  (0x13E8, 0x434845524F4B4545204C45545445522054535620),
  (0x13E9, 0x434845524F4B4545204C455454455220574120),
  (0x13EA, 0x434845524F4B4545204C455454455220574520),
  (0x13EB, 0x434845524F4B4545204C455454455220574920),
  (0x13EC, 0x434845524F4B4545204C455454455220574F20),
  (0x13ED, 0x434845524F4B4545204C455454455220575520),
  (0x13EE, 0x434845524F4B4545204C455454455220575620),
  (0x13EF, 0x434845524F4B4545204C455454455220594120),
  (0x13F0, 0x434845524F4B4545204C455454455220594520),
  (0x13F1, 0x434845524F4B4545204C455454455220594920),
  (0x13F2, 0x434845524F4B4545204C455454455220594F20),
  (0x13F3, 0x434845524F4B4545204C455454455220595520),
  (0x13F4, 0x434845524F4B4545204C455454455220595620),
  (0x13F5, 0x434845524F4B4545204C4554544552204D5620),
  (0x13F8, 0x434845524F4B454520534D414C4C204C455454455220594520),
  (0x13F9, 0x434845524F4B454520534D414C4C204C455454455220594920),
  (0x13FA, 0x434845524F4B454520534D414C4C204C455454455220594F20),
  (0x13FB, 0x434845524F4B454520534D414C4C204C455454455220595520),
  (0x13FC, 0x434845524F4B454520534D414C4C204C455454455220595620),
  (0x13FD, 0x434845524F4B454520534D414C4C204C4554544552204D5620),
  (0x1400, 0x43414E414449414E2053594C4C41424943532048595048454E20),
  (0x1401, 0x43414E414449414E2053594C4C4142494353204520),
  (0x1402, 0x43414E414449414E2053594C4C41424943532041414920),
  (0x1403, 0x43414E414449414E2053594C4C4142494353204920),
  (0x1404, 0x43414E414449414E2053594C4C414249435320494920),
  (0x1405, 0x43414E414449414E2053594C4C4142494353204F20),
  (0x1406, 0x43414E414449414E2053594C4C4142494353204F4F20),
  (0x1407, 0x43414E414449414E2053594C4C414249435320592D43524545204F4F20),
  (0x1408, 0x43414E414449414E2053594C4C4142494353204341525249455220454520),
  (0x1409, 0x43414E414449414E2053594C4C41424943532043415252494552204920),
  (0x140A, 0x43414E414449414E2053594C4C4142494353204120),
  (0x140B, 0x43414E414449414E2053594C4C414249435320414120),
  (0x140C, 0x43414E414449414E2053594C4C414249435320574520),
  (0x140D, 0x43414E414449414E2053594C4C414249435320574553542D4352454520574520),
  (0x140E, 0x43414E414449414E2053594C4C414249435320574920),
  (0x140F, 0x43414E414449414E2053594C4C414249435320574553542D4352454520574920),
  (0x1410, 0x43414E414449414E2053594C4C41424943532057494920),
  (0x1411, 0x43414E414449414E2053594C4C414249435320574553542D435245452057494920),
  (0x1412, 0x43414E414449414E2053594C4C414249435320574F20),
  (0x1413, 0x43414E414449414E2053594C4C414249435320574553542D4352454520574F20),
  (0x1414, 0x43414E414449414E2053594C4C414249435320574F4F20),
  (0x1415, 0x43414E414449414E2053594C4C414249435320574553542D4352454520574F4F20),
  (0x1416, 0x43414E414449414E2053594C4C4142494353204E41534B41504920574F4F20),
  (0x1417, 0x43414E414449414E2053594C4C414249435320574120),
  (0x1418, 0x43414E414449414E2053594C4C414249435320574553542D4352454520574120),
  (0x1419, 0x43414E414449414E2053594C4C41424943532057414120),
  (0x141A, 0x43414E414449414E2053594C4C414249435320574553542D435245452057414120),
  (0x141B, 0x43414E414449414E2053594C4C4142494353204E41534B4150492057414120),
  (0x141C, 0x43414E414449414E2053594C4C414249435320414920),
  (0x141D, 0x43414E414449414E2053594C4C414249435320592D43524545205720),
  (0x141E, 0x43414E414449414E2053594C4C414249435320474C4F5454414C2053544F5020),
  (0x141F, 0x43414E414449414E2053594C4C41424943532046494E414C20414355544520)]
def names_69 : List (Nat × Nat) := [
  (0x1420, 0x43414E414449414E2053594C4C41424943532046494E414C20475241564520),
  (0x1421, 0x43414E414449414E2053594C4C41424943532046494E414C20424F54544F4D2048414C462052494E4720),
  (0x1422, 0x43414E414449414E2053594C4C41424943532046494E414C20544F502048414C462052494E4720),
  (0x1423, 0x43414E414449414E2053594C4C41424943532046494E414C2052494748542048414C462052494E4720),
  (0x1424, 0x43414E414449414E2053594C4C41424943532046494E414C2052494E4720),
  (0x1425, 0x43414E414449414E2053594C4C41424943532046494E414C20444F55424C4520414355544520),
  (0x1426, 0x43414E414449414E2053594C4C41424943532046494E414C20444F55424C452053484F525420564552544943414C205354524F4B455320),
  (0x1427, 0x43414E414449414E2053594C4C41424943532046494E414C204D4944444C4520444F5420),
  (0x1428, 0x43414E414449414E2053594C4C41424943532046494E414C2053484F525420484F52495A4F4E54414C205354524F4B4520),
  (0x1429, 0x43414E414449414E2053594C4C41424943532046494E414C20504C555320),
  (0x142A, 0x43414E414449414E2053594C4C41424943532046494E414C20444F574E205441434B20),
  (0x142B, 0x43414E414449414E2053594C4C414249435320454E20),
  (0x142C, 0x43414E414449414E2053594C4C414249435320494E20),
  (0x142D, 0x43414E414449414E2053594C4C4142494353204F4E20),
  (0x142E, 0x43414E414449414E2053594C4C414249435320414E20),
  (0x142F, 0x43414E414449414E2053594C4C414249435320504520),
  (0x1430, 0x43414E414449414E2053594C4C4142494353205041414920),
  (0x1431, 0x43414E414449414E2053594C4C414249435320504920),
  (0x1432, 0x43414E414449414E2053594C4C41424943532050494920),
  (0x1433, 0x43414E414449414E2053594C4C414249435320504F20),
  (0x1434, 0x43414E414449414E2053594C4C414249435320504F4F20),
  (0x1435, 0x43414E414449414E2053594C4C414249435320592D4352454520504F4F20),
  (0x1436, 0x43414E414449414E2053594C4C414249435320434152524945522048454520),
  (0x1437, 0x43414E414449414E2053594C4C4142494353204341525249455220484920),
  (0x1438, 0x43414E414449414E2053594C4C414249435320504120),
  (0x1439, 0x43414E414449414E2053594C4C41424943532050414120),
  (0x143A, 0x43414E414449414E2053594C4C41424943532050574520),
  (0x143B, 0x43414E414449414E2053594C4C414249435320574553542D435245452050574520),
  (0x143C, 0x43414E414449414E2053594C4C41424943532050574920),
  (0x143D, 0x43414E414449414E2053594C4C414249435320574553542D435245452050574920),
  (0x143E, 0x43414E414449414E2053594C4C4142494353205057494920),
  (0x143F, 0x43414E414449414E2053594C4C414249435320574553542D43524545205057494920),
  (0x1440, 0x43414E414449414E2053594C4C41424943532050574F20),
  (0x1441, 0x43414E414449414E2053594C4C414249435320574553542D435245452050574F20),
  (0x1442, 0x43414E414449414E2053594C4C41424943532050574F4F20),
  (0x1443, 0x43414E414449414E2053594C4C414249435320574553542D435245452050574F4F20),
  (0x1444, 0x43414E414449414E2053594C4C41424943532050574120),
  (0x1445, 0x43414E414449414E2053594C4C414249435320574553542D435245452050574120),
  (0x1446, 0x43414E414449414E2053594C4C4142494353205057414120),
  (0x1447, 0x43414E414449414E2053594C4C414249435320574553542D43524545205057414120),
  (0x1448, 0x43414E414449414E2053594C4C414249435320592D43524545205057414120),
  (0x1449, 0x43414E414449414E2053594C4C4142494353205020),
  (0x144A, 0x43414E414449414E2053594C4C414249435320574553542D43524545205020),
  (0x144B, 0x43414E414449414E2053594C4C41424943532043415252494552204820),
  (0x144C, 0x43414E414449414E2053594C4C414249435320544520),
  (0x144D, 0x43414E414449414E2053594C4C4142494353205441414920),
  (0x144E, 0x43414E414449414E2053594C4C414249435320544920),
  (0x144F, 0x43414E414449414E2053594C4C41424943532054494920),
  (0x1450, 0x43414E414449414E2053594C4C414249435320544F20),
  (0x1451, 0x43414E414449414E2053594C4C414249435320544F4F20),
  (0x1452, 0x43414E414449414E2053594C4C414249435320592D4352454520544F4F20),
  (0x1453, 0x43414E414449414E2053594C4C414249435320434152524945522044454520),
  (0x1454, 0x43414E414449414E2053594C4C4142494353204341525249455220444920),
  (0x1455, 0x43414E414449414E2053594C4C414249435320544120),
  (0x1456, 0x43414E414449414E2053594C4C41424943532054414120),
  (0x1457, 0x43414E414449414E2053594C4C41424943532054574520),
  (0x1458, 0x43414E414449414E2053594C4C414249435320574553542D435245452054574520),
  (0x1459, 0x43414E414449414E2053594C4C41424943532054574920),
  (0x145A, 0x43414E414449414E2053594C4C414249435320574553542D435245452054574920),
  (0x145B, 0x43414E414449414E2053594C4C4142494353205457494920),
  (0x145C, 0x43414E414449414E2053594C4C414249435320574553542D43524545205457494920),
  (0x145D, 0x43414E414449414E2053594C4C41424943532054574F20),
  (0x145E, 0x43414E414449414E2053594C4C414249435320574553542D435245452054574F20),
  (0x145F, 0x43414E414449414E2053594C4C41424943532054574F4F20)]
def names_70 : List (Nat × Nat) := [
  (0x1460, 0x43414E414449414E2053594C4C414249435320574553542D435245452054574F4F20),
  (0x1461, 0x43414E414449414E2053594C4C41424943532054574120),
  (0x1462, 0x43414E414449414E2053594C4C414249435320574553542D435245452054574120),
  (0x1463, 0x43414E414449414E2053594C4C4142494353205457414120),
  (0x1464, 0x43414E414449414E2053594C4C414249435320574553542D43524545205457414120),
  (0x1465, 0x43414E414449414E2053594C4C4142494353204E41534B415049205457414120),
  (0x1466, 0x43414E414449414E2053594C4C4142494353205420),
  (0x1467, 0x43414E414449414E2053594C4C41424943532054544520),
  (0x1468, 0x43414E414449414E2053594C4C41424943532054544920),
  (0x1469, 0x43414E414449414E2053594C4C41424943532054544F20),
  (0x146A, 0x43414E414449414E2053594C4C41424943532054544120),
  (0x146B, 0x43414E414449414E2053594C4C4142494353204B4520),
  (0x146C, 0x43414E414449414E2053594C4C4142494353204B41414920),
  (0x146D, 0x43414E414449414E2053594C4C4142494353204B4920),
  (0x146E, 0x43414E414449414E2053594C4C4142494353204B494920),
  (0x146F, 0x43414E414449414E2053594C4C4142494353204B4F20),
  (0x1470, 0x43414E414449414E2053594C4C4142494353204B4F4F20),
  (0x1471, 0x43414E414449414E2053594C4C414249435320592D43524545204B4F4F20),
  (0x1472, 0x43414E414449414E2053594C4C4142494353204B4120),
  (0x1473, 0x43414E414449414E2053594C4C4142494353204B414120),
  (0x1474, 0x43414E414449414E2053594C4C4142494353204B574520),
  (0x1475, 0x43414E414449414E2053594C4C414249435320574553542D43524545204B574520),
  (0x1476, 0x43414E414449414E2053594C4C4142494353204B574920),
  (0x1477, 0x43414E414449414E2053594C4C414249435320574553542D43524545204B574920),
  (0x1478, 0x43414E414449414E2053594C4C4142494353204B57494920),
  (0x1479, 0x43414E414449414E2053594C4C414249435320574553542D43524545204B57494920),
  (0x147A, 0x43414E414449414E2053594C4C4142494353204B574F20),
  (0x147B, 0x43414E414449414E2053594C4C414249435320574553542D43524545204B574F20),
  (0x147C, 0x43414E414449414E2053594C4C4142494353204B574F4F20),
  (0x147D, 0x43414E414449414E2053594C4C414249435320574553542D43524545204B574F4F20),
  (0x147E, 0x43414E414449414E2053594C4C4142494353204B574120),
  (0x147F, 0x43414E414449414E2053594C4C414249435320574553542D43524545204B574120),
  (0x1480, 0x43414E414449414E2053594C4C4142494353204B57414120),
  (0x1481, 0x43414E414449414E2053594C4C414249435320574553542D43524545204B57414120),
  (0x1482, 0x43414E414449414E2053594C4C4142494353204E41534B415049204B57414120),
  (0x1483, 0x43414E414449414E2053594C4C4142494353204B20),
  (0x1484, 0x43414E414449414E2053594C4C4142494353204B5720),
  (0x1485, 0x43414E414449414E2053594C4C414249435320534F5554482D534C41564559204B454820),
  (0x1486, 0x43414E414449414E2053594C4C414249435320534F5554482D534C41564559204B494820),
  (0x1487, 0x43414E414449414E2053594C4C414249435320534F5554482D534C41564559204B4F4820),
  (0x1488, 0x43414E414449414E2053594C4C414249435320534F5554482D534C41564559204B414820),
  (0x1489, 0x43414E414449414E2053594C4C414249435320434520),
  (0x148A, 0x43414E414449414E2053594C4C4142494353204341414920),
  (0x148B, 0x43414E414449414E2053594C4C414249435320434920),
  (0x148C, 0x43414E414449414E2053594C4C41424943532043494920),
  (0x148D, 0x43414E414449414E2053594C4C414249435320434F20),
  (0x148E, 0x43414E414449414E2053594C4C414249435320434F4F20),
  (0x148F, 0x43414E414449414E2053594C4C414249435320592D4352454520434F4F20),
  (0x1490, 0x43414E414449414E2053594C4C414249435320434120),
  (0x1491, 0x43414E414449414E2053594C4C41424943532043414120),
  (0x1492, 0x43414E414449414E2053594C4C41424943532043574520),
  (0x1493, 0x43414E414449414E2053594C4C414249435320574553542D435245452043574520),
  (0x1494, 0x43414E414449414E2053594C4C41424943532043574920),
  (0x1495, 0x43414E414449414E2053594C4C414249435320574553542D435245452043574920),
  (0x1496, 0x43414E414449414E2053594C4C4142494353204357494920),
  (0x1497, 0x43414E414449414E2053594C4C414249435320574553542D43524545204357494920),
  (0x1498, 0x43414E414449414E2053594C4C41424943532043574F20),
  (0x1499, 0x43414E414449414E2053594C4C414249435320574553542D435245452043574F20),
  (0x149A, 0x43414E414449414E2053594C4C41424943532043574F4F20),
  (0x149B, 0x43414E414449414E2053594C4C414249435320574553542D435245452043574F4F20),
  (0x149C, 0x43414E414449414E2053594C4C41424943532043574120),
  (0x149D, 0x43414E414449414E2053594C4C414249435320574553542D435245452043574120),
  (0x149E, 0x43414E414449414E2053594C4C4142494353204357414120),
  (0x149F, 0x43414E414449414E2053594C4C414249435320574553542D43524545204357414120)]
def names_71 : List (Nat × Nat) := [
  (0x14A0, 0x43414E414449414E2053594C4C4142494353204E41534B415049204357414120),
  (0x14A1, 0x43414E414449414E2053594C4C4142494353204320),
  (0x14A2, 0x43414E414449414E2053594C4C41424943532053415949534920544820),
  (0x14A3, 0x43414E414449414E2053594C4C4142494353204D4520),
  (0x14A4, 0x43414E414449414E2053594C4C4142494353204D41414920),
  (0x14A5, 0x43414E414449414E2053594C4C4142494353204D4920),
  (0x14A6, 0x43414E414449414E2053594C4C4142494353204D494920),
  (0x14A7, 0x43414E414449414E2053594C4C4142494353204D4F20),
  (0x14A8, 0x43414E414449414E2053594C4C4142494353204D4F4F20),
  (0x14A9, 0x43414E414449414E2053594C4C414249435320592D43524545204D4F4F20),
  (0x14AA, 0x43414E414449414E2053594C4C4142494353204D4120),
  (0x14AB, 0x43414E414449414E2053594C4C4142494353204D414120),
  (0x14AC, 0x43414E414449414E2053594C4C4142494353204D574520),
  (0x14AD, 0x43414E414449414E2053594C4C414249435320574553542D43524545204D574520),
  (0x14AE, 0x43414E414449414E2053594C4C4142494353204D574920),
  (0x14AF, 0x43414E414449414E2053594C4C414249435320574553542D43524545204D574920),
  (0x14B0, 0x43414E414449414E2053594C4C4142494353204D57494920),
  (0x14B1, 0x43414E414449414E2053594C4C414249435320574553542D43524545204D57494920),
  (0x14B2, 0x43414E414449414E2053594C4C4142494353204D574F20),
  (0x14B3, 0x43414E414449414E2053594C4C414249435320574553542D43524545204D574F20),
  (0x14B4, 0x43414E414449414E2053594C4C4142494353204D574F4F20),
  (0x14B5, 0x43414E414449414E2053594C4C414249435320574553542D43524545204D574F4F20),
  (0x14B6, 0x43414E414449414E2053594C4C4142494353204D574120),
  (0x14B7, 0x43414E414449414E2053594C4C414249435320574553542D43524545204D574120),
  (0x14B8, 0x43414E414449414E2053594C4C4142494353204D57414120),
  (0x14B9, 0x43414E414449414E2053594C4C414249435320574553542D43524545204D57414120),
  (0x14BA, 0x43414E414449414E2053594C4C4142494353204E41534B415049204D57414120),
  (0x14BB, 0x43414E414449414E2053594C4C4142494353204D20),
  (0x14BC, 0x43414E414449414E2053594C4C414249435320574553542D43524545204D20),
  (0x14BD, 0x43414E414449414E2053594C4C4142494353204D4820),
  (0x14BE, 0x43414E414449414E2053594C4C4142494353204154484150415343414E204D20),
  (0x14BF, 0x43414E414449414E2053594C4C414249435320534159495349204D20),
  (0x14C0, 0x43414E414449414E2053594C4C4142494353204E4520),
  (0x14C1, 0x43414E414449414E2053594C4C4142494353204E41414920),
  (0x14C2, 0x43414E414449414E2053594C4C4142494353204E4920),
  (0x14C3, 0x43414E414449414E2053594C4C4142494353204E494920),
  (0x14C4, 0x43414E414449414E2053594C4C4142494353204E4F20),
  (0x14C5, 0x43414E414449414E2053594C4C4142494353204E4F4F20),
  (0x14C6, 0x43414E414449414E2053594C4C414249435320592D43524545204E4F4F20),
  (0x14C7, 0x43414E414449414E2053594C4C4142494353204E4120),
  (0x14C8, 0x43414E414449414E2053594C4C4142494353204E414120),
  (0x14C9, 0x43414E414449414E2053594C4C4142494353204E574520),
  (0x14CA, 0x43414E414449414E2053594C4C414249435320574553542D43524545204E574520),
  (0x14CB, 0x43414E414449414E2053594C4C4142494353204E574120),
  (0x14CC, 0x43414E414449414E2053594C4C414249435320574553542D43524545204E574120),
  (0x14CD, 0x43414E414449414E2053594C4C4142494353204E57414120),
  (0x14CE, 0x43414E414449414E2053594C4C414249435320574553542D43524545204E57414120),
  (0x14CF, 0x43414E414449414E2053594C4C4142494353204E41534B415049204E57414120),
  (0x14D0, 0x43414E414449414E2053594C4C4142494353204E20),
  (0x14D1, 0x43414E414449414E2053594C4C41424943532043415252494552204E4720),
  (0x14D2, 0x43414E414449414E2053594C4C4142494353204E4820),
  (0x14D3, 0x43414E414449414E2053594C4C4142494353204C4520),
  (0x14D4, 0x43414E414449414E2053594C4C4142494353204C41414920),
  (0x14D5, 0x43414E414449414E2053594C4C4142494353204C4920),
  (0x14D6, 0x43414E414449414E2053594C4C4142494353204C494920),
  (0x14D7, 0x43414E414449414E2053594C4C4142494353204C4F20),
  (0x14D8, 0x43414E414449414E2053594C4C4142494353204C4F4F20),
  (0x14D9, 0x43414E414449414E2053594C4C414249435320592D43524545204C4F4F20),
  (0x14DA, 0x43414E414449414E2053594C4C4142494353204C4120),
  (0x14DB, 0x43414E414449414E2053594C4C4142494353204C414120),
  (0x14DC, 0x43414E414449414E2053594C4C4142494353204C574520),
  (0x14DD, 0x43414E414449414E2053594C4C414249435320574553542D43524545204C574520),
  (0x14DE, 0x43414E414449414E2053594C4C4142494353204C574920),
  (0x14DF, 0x43414E414449414E2053594C4C414249435320574553542D43524545204C574920)]
def names_72 : List (Nat × Nat) := [
  (0x14E0, 0x43414E414449414E2053594C4C4142494353204C57494920),
  (0x14E1, 0x43414E414449414E2053594C4C414249435320574553542D43524545204C57494920),
  (0x14E2, 0x43414E414449414E2053594C4C4142494353204C574F20),
  (0x14E3, 0x43414E414449414E2053594C4C414249435320574553542D43524545204C574F20),
  (0x14E4, 0x43414E414449414E2053594C4C4142494353204C574F4F20),
  (0x14E5, 0x43414E414449414E2053594C4C414249435320574553542D43524545204C574F4F20),
  (0x14E6, 0x43414E414449414E2053594C4C4142494353204C574120),
  (0x14E7, 0x43414E414449414E2053594C4C414249435320574553542D43524545204C574120),
  (0x14E8, 0x43414E414449414E2053594C4C4142494353204C57414120),
  (0x14E9, 0x43414E414449414E2053594C4C414249435320574553542D43524545204C57414120),
  (0x14EA, 0x43414E414449414E2053594C4C4142494353204C20),
  (0x14EB, 0x43414E414449414E2053594C4C414249435320574553542D43524545204C20),
  (0x14EC, 0x43414E414449414E2053594C4C4142494353204D454449414C204C20),
  (0x14ED, 0x43414E414449414E2053594C4C414249435320534520),
  (0x14EE, 0x43414E414449414E2053594C4C4142494353205341414920),
  (0x14EF, 0x43414E414449414E2053594C4C414249435320534920),
  (0x14F0, 0x43414E414449414E2053594C4C41424943532053494920),
  (0x14F1, 0x43414E414449414E2053594C4C414249435320534F20),
  (0x14F2, 0x43414E414449414E2053594C4C414249435320534F4F20),
  (0x14F3, 0x43414E414449414E2053594C4C414249435320592D4352454520534F4F20),
  (0x14F4, 0x43414E414449414E2053594C4C414249435320534120),
  (0x14F5, 0x43414E414449414E2053594C4C41424943532053414120),
  (0x14F6, 0x43414E414449414E2053594C4C41424943532053574520),
  (0x14F7, 0x43414E414449414E2053594C4C414249435320574553542D435245452053574520),
  (0x14F8, 0x43414E414449414E2053594C4C41424943532053574920),
  (0x14F9, 0x43414E414449414E2053594C4C414249435320574553542D435245452053574920),
  (0x14FA, 0x43414E414449414E2053594C4C4142494353205357494920),
  (0x14FB, 0x43414E414449414E2053594C4C414249435320574553542D43524545205357494920),
  (0x14FC, 0x43414E414449414E2053594C4C41424943532053574F20),
  (0x14FD, 0x43414E414449414E2053594C4C414249435320574553542D435245452053574F20),
  (0x14FE, 0x43414E414449414E2053594C4C41424943532053574F4F20),
  (0x14FF, 0x43414E414449414E2053594C4C414249435320574553542D435245452053574F4F20),
  (0x1500, 0x43414E414449414E2053594C4C41424943532053574120),
  (0x1501, 0x43414E414449414E2053594C4C414249435320574553542D435245452053574120),
  (0x1502, 0x43414E414449414E2053594C4C4142494353205357414120),
  (0x1503, 0x43414E414449414E2053594C4C414249435320574553542D43524545205357414120),
  (0x1504, 0x43414E414449414E2053594C4C4142494353204E41534B415049205357414120),
  (0x1505, 0x43414E414449414E2053594C4C4142494353205320),
  (0x1506, 0x43414E414449414E2053594C4C4142494353204154484150415343414E205320),
  (0x1507, 0x43414E414449414E2053594C4C414249435320535720),
  (0x1508, 0x43414E414449414E2053594C4C414249435320424C41434B464F4F54205320),
  (0x1509, 0x43414E414449414E2053594C4C4142494353204D4F4F53452D4352454520534B20),
  (0x150A, 0x43414E414449414E2053594C4C4142494353204E41534B41504920534B5720),
  (0x150B, 0x43414E414449414E2053594C4C4142494353204E41534B41504920532D5720),
  (0x150C, 0x43414E414449414E2053594C4C4142494353204E41534B415049205350574120),
  (0x150D, 0x43414E414449414E2053594C4C4142494353204E41534B415049205354574120),
  (0x150E, 0x43414E414449414E2053594C4C4142494353204E41534B41504920534B574120),
  (0x150F, 0x43414E414449414E2053594C4C4142494353204E41534B415049205343574120),
  (0x1510, 0x43414E414449414E2053594C4C41424943532053484520),
  (0x1511, 0x43414E414449414E2053594C4C41424943532053484920),
  (0x1512, 0x43414E414449414E2053594C4C4142494353205348494920),
  (0x1513, 0x43414E414449414E2053594C4C41424943532053484F20),
  (0x1514, 0x43414E414449414E2053594C4C41424943532053484F4F20),
  (0x1515, 0x43414E414449414E2053594C4C41424943532053484120),
  (0x1516, 0x43414E414449414E2053594C4C4142494353205348414120),
  (0x1517, 0x43414E414449414E2053594C4C4142494353205348574520),
  (0x1518, 0x43414E414449414E2053594C4C414249435320574553542D43524545205348574520),
  (0x1519, 0x43414E414449414E2053594C4C4142494353205348574920),
  (0x151A, 0x43414E414449414E2053594C4C414249435320574553542D43524545205348574920),
  (0x151B, 0x43414E414449414E2053594C4C414249435320534857494920),
  (0x151C, 0x43414E414449414E2053594C4C414249435320574553542D4352454520534857494920),
  (0x151D, 0x43414E414449414E2053594C4C4142494353205348574F20),
  (0x151E, 0x43414E414449414E2053594C4C414249435320574553542D43524545205348574F20),
  (0x151F, 0x43414E414449414E2053594C4C4142494353205348574F4F20)]
def names_73 : List (Nat × Nat) := [
  (0x1520, 0x43414E414449414E2053594C4C414249435320574553542D43524545205348574F4F20),
  (0x1521, 0x43414E414449414E2053594C4C4142494353205348574120),
  (0x1522, 0x43414E414449414E2053594C4C414249435320574553542D43524545205348574120),
  (0x1523, 0x43414E414449414E2053594C4C414249435320534857414120),
  (0x1524, 0x43414E414449414E2053594C4C414249435320574553542D4352454520534857414120),
  (0x1525, 0x43414E414449414E2053594C4C414249435320534820),
  (0x1526, 0x43414E414449414E2053594C4C414249435320594520),
  (0x1527, 0x43414E414449414E2053594C4C4142494353205941414920),
  (0x1528, 0x43414E414449414E2053594C4C414249435320594920),
  (0x1529, 0x43414E414449414E2053594C4C41424943532059494920),
  (0x152A, 0x43414E414449414E2053594C4C414249435320594F20),
  (0x152B, 0x43414E414449414E2053594C4C414249435320594F4F20),
  (0x152C, 0x43414E414449414E2053594C4C414249435320592D4352454520594F4F20),
  (0x152D, 0x43414E414449414E2053594C4C414249435320594120),
  (0x152E, 0x43414E414449414E2053594C4C41424943532059414120),
  (0x152F, 0x43414E414449414E2053594C4C41424943532059574520),
  (0x1530, 0x43414E414449414E2053594C4C414249435320574553542D435245452059574520),
  (0x1531, 0x43414E414449414E2053594C4C41424943532059574920),
  (0x1532, 0x43414E414449414E2053594C4C414249435320574553542D435245452059574920),
  (0x1533, 0x43414E414449414E2053594C4C4142494353205957494920),
  (0x1534, 0x43414E414449414E2053594C4C414249435320574553542D43524545205957494920),
  (0x1535, 0x43414E414449414E2053594C4C41424943532059574F20),
  (0x1536, 0x43414E414449414E2053594C4C414249435320574553542D435245452059574F20),
  (0x1537, 0x43414E414449414E2053594C4C41424943532059574F4F20),
  (0x1538, 0x43414E414449414E2053594C4C414249435320574553542D435245452059574F4F20),
  (0x1539, 0x43414E414449414E2053594C4C41424943532059574120),
  (0x153A, 0x43414E414449414E2053594C4C414249435320574553542D435245452059574120),
  (0x153B, 0x43414E414449414E2053594C4C4142494353205957414120),
  (0x153C, 0x43414E414449414E2053594C4C414249435320574553542D43524545205957414120),
  (0x153D, 0x43414E414449414E2053594C4C4142494353204E41534B415049205957414120),
  (0x153E, 0x43414E414449414E2053594C4C4142494353205920),
  (0x153F, 0x43414E414449414E2053594C4C4142494353204249424C452D43524545205920),
  (0x1540, 0x43414E414449414E2053594C4C414249435320574553542D43524545205920),
  (0x1541, 0x43414E414449414E2053594C4C41424943532053415949534920594920),
  (0x1542, 0x43414E414449414E2053594C4C414249435320524520),
  (0x1543, 0x43414E414449414E2053594C4C414249435320522D4352454520524520),
  (0x1544, 0x43414E414449414E2053594C4C414249435320574553542D43524545204C4520),
  (0x1545, 0x43414E414449414E2053594C4C4142494353205241414920),
  (0x1546, 0x43414E414449414E2053594C4C414249435320524920),
  (0x1547, 0x43414E414449414E2053594C4C41424943532052494920),
  (0x1548, 0x43414E414449414E2053594C4C414249435320524F20),
  (0x1549, 0x43414E414449414E2053594C4C414249435320524F4F20),
  (0x154A, 0x43414E414449414E2053594C4C414249435320574553542D43524545204C4F20),
  (0x154B, 0x43414E414449414E2053594C4C414249435320524120),
  (0x154C, 0x43414E414449414E2053594C4C41424943532052414120),
  (0x154D, 0x43414E414449414E2053594C4C414249435320574553542D43524545204C4120),
  (0x154E, 0x43414E414449414E2053594C4C4142494353205257414120),
  (0x154F, 0x43414E414449414E2053594C4C414249435320574553542D43524545205257414120),
  (0x1550, 0x43414E414449414E2053594C4C4142494353205220),
  (0x1551, 0x43414E414449414E2053594C4C414249435320574553542D43524545205220),
  (0x1552, 0x43414E414449414E2053594C4C4142494353204D454449414C205220),
  (0x1553, 0x43414E414449414E2053594C4C414249435320464520),
  (0x1554, 0x43414E414449414E2053594C4C4142494353204641414920),
  (0x1555, 0x43414E414449414E2053594C4C414249435320464920),
  (0x1556, 0x43414E414449414E2053594C4C41424943532046494920),
  (0x1557, 0x43414E414449414E2053594C4C414249435320464F20),
  (0x1558, 0x43414E414449414E2053594C4C414249435320464F4F20),
  (0x1559, 0x43414E414449414E2053594C4C414249435320464120),
  (0x155A, 0x43414E414449414E2053594C4C41424943532046414120),
  (0x155B, 0x43414E414449414E2053594C4C4142494353204657414120),
  (0x155C, 0x43414E414449414E2053594C4C414249435320574553542D43524545204657414120),
  (0x155D, 0x43414E414449414E2053594C4C4142494353204620),
  (0x155E, 0x43414E414449414E2053594C4C41424943532054484520),
  (0x155F, 0x43414E414449414E2053594C4C4142494353204E2D435245452054484520)]
def names_74 : List (Nat × Nat) := [
  (0x1560, 0x43414E414449414E2053594C4C41424943532054484920),
  (0x1561, 0x43414E414449414E2053594C4C4142494353204E2D435245452054484920),
  (0x1562, 0x43414E414449414E2053594C4C4142494353205448494920),
  (0x1563, 0x43414E414449414E2053594C4C4142494353204E2D43524545205448494920),
  (0x1564, 0x43414E414449414E2053594C4C41424943532054484F20),
  (0x1565, 0x43414E414449414E2053594C4C41424943532054484F4F20),
  (0x1566, 0x43414E414449414E2053594C4C41424943532054484120),
  (0x1567, 0x43414E414449414E2053594C4C4142494353205448414120),
  (0x1568, 0x43414E414449414E2053594C4C414249435320544857414120),
  (0x1569, 0x43414E414449414E2053594C4C414249435320574553542D4352454520544857414120),
  (0x156A, 0x43414E414449414E2053594C4C414249435320544820),
  (0x156B, 0x43414E414449414E2053594C4C4142494353205454484520),
  (0x156C, 0x43414E414449414E2053594C4C4142494353205454484920),
  (0x156D, 0x43414E414449414E2053594C4C4142494353205454484F20),
  (0x156E, 0x43414E414449414E2053594C4C4142494353205454484120),
  (0x156F, 0x43414E414449414E2053594C4C41424943532054544820),
  (0x1570, 0x43414E414449414E2053594C4C41424943532054594520),
  (0x1571, 0x43414E414449414E2053594C4C41424943532054594920),
  (0x1572, 0x43414E414449414E2053594C4C41424943532054594F20),
  (0x1573, 0x43414E414449414E2053594C4C41424943532054594120),
  (0x1574, 0x43414E414449414E2053594C4C4142494353204E554E4156494B20484520),
  (0x1575, 0x43414E414449414E2053594C4C4142494353204E554E4156494B20484920),
  (0x1576, 0x43414E414449414E2053594C4C4142494353204E554E4156494B2048494920),
  (0x1577, 0x43414E414449414E2053594C4C4142494353204E554E4156494B20484F20),
  (0x1578, 0x43414E414449414E2053594C4C4142494353204E554E4156494B20484F4F20),
  (0x1579, 0x43414E414449414E2053594C4C4142494353204E554E4156494B20484120),
  (0x157A, 0x43414E414449414E2053594C4C4142494353204E554E4156494B2048414120),
  (0x157B, 0x43414E414449414E2053594C4C4142494353204E554E4156494B204820),
  (0x157C, 0x43414E414449414E2053594C4C4142494353204E554E41565554204820),
  (0x157D, 0x43414E414449414E2053594C4C414249435320484B20),
  (0x157E, 0x43414E414449414E2053594C4C4142494353205141414920),
  (0x157F, 0x43414E414449414E2053594C4C414249435320514920),
  (0x1580, 0x43414E414449414E2053594C4C41424943532051494920),
  (0x1581, 0x43414E414449414E2053594C4C414249435320514F20),
  (0x1582, 0x43414E414449414E2053594C4C414249435320514F4F20),
  (0x1583, 0x43414E414449414E2053594C4C414249435320514120),
  (0x1584, 0x43414E414449414E2053594C4C41424943532051414120),
  (0x1585, 0x43414E414449414E2053594C4C4142494353205120),
  (0x1586, 0x43414E414449414E2053594C4C414249435320544C484520),
  (0x1587, 0x43414E414449414E2053594C4C414249435320544C484920),
  (0x1588, 0x43414E414449414E2053594C4C414249435320544C484F20),
  (0x1589, 0x43414E414449414E2053594C4C414249435320544C484120),
  (0x158A, 0x43414E414449414E2053594C4C414249435320574553542D4352454520524520),
  (0x158B, 0x43414E414449414E2053594C4C414249435320574553542D4352454520524920),
  (0x158C, 0x43414E414449414E2053594C4C414249435320574553542D4352454520524F20),
  (0x158D, 0x43414E414449414E2053594C4C414249435320574553542D4352454520524120),
  (0x158E, 0x43414E414449414E2053594C4C4142494353204E4741414920),
  (0x158F, 0x43414E414449414E2053594C4C4142494353204E474920),
  (0x1590, 0x43414E414449414E2053594C4C4142494353204E47494920),
  (0x1591, 0x43414E414449414E2053594C4C4142494353204E474F20),
  (0x1592, 0x43414E414449414E2053594C4C4142494353204E474F4F20),
  (0x1593, 0x43414E414449414E2053594C4C4142494353204E474120),
  (0x1594, 0x43414E414449414E2053594C4C4142494353204E47414120),
  (0x1595, 0x43414E414449414E2053594C4C4142494353204E4720),
  (0x1596, 0x43414E414449414E2053594C4C4142494353204E4E4720),
  (0x1597, 0x43414E414449414E2053594C4C4142494353205341594953492053484520),
  (0x1598, 0x43414E414449414E2053594C4C4142494353205341594953492053484920),
  (0x1599, 0x43414E414449414E2053594C4C4142494353205341594953492053484F20),
  (0x159A, 0x43414E414449414E2053594C4C4142494353205341594953492053484120),
  (0x159B, 0x43414E414449414E2053594C4C414249435320574F4F44532D435245452054484520),
  (0x159C, 0x43414E414449414E2053594C4C414249435320574F4F44532D435245452054484920),
  (0x159D, 0x43414E414449414E2053594C4C414249435320574F4F44532D435245452054484F20),
  (0x159E, 0x43414E414449414E2053594C4C414249435320574F4F44532D435245452054484120),
  (0x159F, 0x43414E414449414E2053594C4C414249435320574F4F44532D4352454520544820)]
def names_75 : List (Nat × Nat) := [
  (0x15A0, 0x43414E414449414E2053594C4C4142494353204C484920),
  (0x15A1, 0x43414E414449414E2053594C4C4142494353204C48494920),
  (0x15A2, 0x43414E414449414E2053594C4C4142494353204C484F20),
  (0x15A3, 0x43414E414449414E2053594C4C4142494353204C484F4F20),
  (0x15A4, 0x43414E414449414E2053594C4C4142494353204C484120),
  (0x15A5, 0x43414E414449414E2053594C4C4142494353204C48414120),
  (0x15A6, 0x43414E414449414E2053594C4C4142494353204C4820),
  (0x15A7, 0x43414E414449414E2053594C4C41424943532054482D435245452054484520),
  (0x15A8, 0x43414E414449414E2053594C4C41424943532054482D435245452054484920),
  (0x15A9, 0x43414E414449414E2053594C4C41424943532054482D43524545205448494920),
  (0x15AA, 0x43414E414449414E2053594C4C41424943532054482D435245452054484F20),
  (0x15AB, 0x43414E414449414E2053594C4C41424943532054482D435245452054484F4F20),
  (0x15AC, 0x43414E414449414E2053594C4C41424943532054482D435245452054484120),
  (0x15AD, 0x43414E414449414E2053594C4C41424943532054482D43524545205448414120),
  (0x15AE, 0x43414E414449414E2053594C4C41424943532054482D4352454520544820),
  (0x15AF, 0x43414E414449414E2053594C4C414249435320414956494C494B204220),
  (0x15B0, 0x43414E414449414E2053594C4C414249435320424C41434B464F4F54204520),
  (0x15B1, 0x43414E414449414E2053594C4C414249435320424C41434B464F4F54204920),
  (0x15B2, 0x43414E414449414E2053594C4C414249435320424C41434B464F4F54204F20),
  (0x15B3, 0x43414E414449414E2053594C4C414249435320424C41434B464F4F54204120),
  (0x15B4, 0x43414E414449414E2053594C4C414249435320424C41434B464F4F5420574520),
  (0x15B5, 0x43414E414449414E2053594C4C414249435320424C41434B464F4F5420574920),
  (0x15B6, 0x43414E414449414E2053594C4C414249435320424C41434B464F4F5420574F20),
  (0x15B7, 0x43414E414449414E2053594C4C414249435320424C41434B464F4F5420574120),
  (0x15B8, 0x43414E414449414E2053594C4C414249435320424C41434B464F4F54204E4520),
  (0x15B9, 0x43414E414449414E2053594C4C414249435320424C41434B464F4F54204E4920),
  (0x15BA, 0x43414E414449414E2053594C4C414249435320424C41434B464F4F54204E4F20),
  (0x15BB, 0x43414E414449414E2053594C4C414249435320424C41434B464F4F54204E4120),
  (0x15BC, 0x43414E414449414E2053594C4C414249435320424C41434B464F4F54204B4520),
  (0x15BD, 0x43414E414449414E2053594C4C414249435320424C41434B464F4F54204B4920),
  (0x15BE, 0x43414E414449414E2053594C4C414249435320424C41434B464F4F54204B4F20),
  (0x15BF, 0x43414E414449414E2053594C4C414249435320424C41434B464F4F54204B4120),
  (0x15C0, 0x43414E414449414E2053594C4C41424943532053415949534920484520),
  (0x15C1, 0x43414E414449414E2053594C4C41424943532053415949534920484920),
  (0x15C2, 0x43414E414449414E2053594C4C41424943532053415949534920484F20),
  (0x15C3, 0x43414E414449414E2053594C4C41424943532053415949534920484120),
  (0x15C4, 0x43414E414449414E2053594C4C414249435320434152524945522047485520),
  (0x15C5, 0x43414E414449414E2053594C4C414249435320434152524945522047484F20),
  (0x15C6, 0x43414E414449414E2053594C4C414249435320434152524945522047484520),
  (0x15C7, 0x43414E414449414E2053594C4C41424943532043415252494552204748454520),
  (0x15C8, 0x43414E414449414E2053594C4C414249435320434152524945522047484920),
  (0x15C9, 0x43414E414449414E2053594C4C414249435320434152524945522047484120),
  (0x15CA, 0x43414E414449414E2053594C4C4142494353204341525249455220525520),
  (0x15CB, 0x43414E414449414E2053594C4C4142494353204341525249455220524F20),
  (0x15CC, 0x43414E414449414E2053594C4C4142494353204341525249455220524520),
  (0x15CD, 0x43414E414449414E2053594C4C414249435320434152524945522052454520),
  (0x15CE, 0x43414E414449414E2053594C4C4142494353204341525249455220524920),
  (0x15CF, 0x43414E414449414E2053594C4C4142494353204341525249455220524120),
  (0x15D0, 0x43414E414449414E2053594C4C4142494353204341525249455220575520),
  (0x15D1, 0x43414E414449414E2053594C4C4142494353204341525249455220574F20),
  (0x15D2, 0x43414E414449414E2053594C4C4142494353204341525249455220574520),
  (0x15D3, 0x43414E414449414E2053594C4C414249435320434152524945522057454520),
  (0x15D4, 0x43414E414449414E2053594C4C4142494353204341525249455220574920),
  (0x15D5, 0x43414E414449414E2053594C4C4142494353204341525249455220574120),
  (0x15D6, 0x43414E414449414E2053594C4C414249435320434152524945522048575520),
  (0x15D7, 0x43414E414449414E2053594C4C414249435320434152524945522048574F20),
  (0x15D8, 0x43414E414449414E2053594C4C414249435320434152524945522048574520),
  (0x15D9, 0x43414E414449414E2053594C4C41424943532043415252494552204857454520),
  (0x15DA, 0x43414E414449414E2053594C4C414249435320434152524945522048574920),
  (0x15DB, 0x43414E414449414E2053594C4C414249435320434152524945522048574120),
  (0x15DC, 0x43414E414449414E2053594C4C414249435320434152524945522054485520),
  (0x15DD, 0x43414E414449414E2053594C4C414249435320434152524945522054484F20),
  (0x15DE, 0x43414E414449414E2053594C4C414249435320434152524945522054484520),
  (0x15DF, 0x43414E414449414E2053594C4C41424943532043415252494552205448454520)]
def names_76 : List (Nat × Nat) := [
  (0x15E0, 0x43414E414449414E2053594C4C414249435320434152524945522054484920),
  (0x15E1, 0x43414E414449414E2053594C4C414249435320434152524945522054484120),
  (0x15E2, 0x43414E414449414E2053594C4C414249435320434152524945522054545520),
  (0x15E3, 0x43414E414449414E2053594C4C414249435320434152524945522054544F20),
  (0x15E4, 0x43414E414449414E2053594C4C414249435320434152524945522054544520),
  (0x15E5, 0x43414E414449414E2053594C4C41424943532043415252494552205454454520),
  (0x15E6, 0x43414E414449414E2053594C4C414249435320434152524945522054544920),
  (0x15E7, 0x43414E414449414E2053594C4C414249435320434152524945522054544120),
  (0x15E8, 0x43414E414449414E2053594C4C4142494353204341525249455220505520),
  (0x15E9, 0x43414E414449414E2053594C4C4142494353204341525249455220504F20),
  (0x15EA, 0x43414E414449414E2053594C4C4142494353204341525249455220504520),
  (0x15EB, 0x43414E414449414E2053594C4C414249435320434152524945522050454520),
  (0x15EC, 0x43414E414449414E2053594C4C4142494353204341525249455220504920),
  (0x15ED, 0x43414E414449414E2053594C4C4142494353204341525249455220504120),
  (0x15EE, 0x43414E414449414E2053594C4C41424943532043415252494552205020),
  (0x15EF, 0x43414E414449414E2053594C4C4142494353204341525249455220475520),
  (0x15F0, 0x43414E414449414E2053594C4C4142494353204341525249455220474F20),
  (0x15F1, 0x43414E414449414E2053594C4C4142494353204341525249455220474520),
  (0x15F2, 0x43414E414449414E2053594C4C414249435320434152524945522047454520),
  (0x15F3, 0x43414E414449414E2053594C4C4142494353204341525249455220474920),
  (0x15F4, 0x43414E414449414E2053594C4C4142494353204341525249455220474120),
  (0x15F5, 0x43414E414449414E2053594C4C41424943532043415252494552204B485520),
  (0x15F6, 0x43414E414449414E2053594C4C41424943532043415252494552204B484F20),
  (0x15F7, 0x43414E414449414E2053594C4C41424943532043415252494552204B484520),
  (0x15F8, 0x43414E414449414E2053594C4C41424943532043415252494552204B48454520),
  (0x15F9, 0x43414E414449414E2053594C4C41424943532043415252494552204B484920),
  (0x15FA, 0x43414E414449414E2053594C4C41424943532043415252494552204B484120),
  (0x15FB, 0x43414E414449414E2053594C4C41424943532043415252494552204B4B5520),
  (0x15FC, 0x43414E414449414E2053594C4C41424943532043415252494552204B4B4F20),
  (0x15FD, 0x43414E414449414E2053594C4C41424943532043415252494552204B4B4520),
  (0x15FE, 0x43414E414449414E2053594C4C41424943532043415252494552204B4B454520),
  (0x15FF, 0x43414E414449414E2053594C4C41424943532043415252494552204B4B4920),
  (0x1600, 0x43414E414449414E2053594C4C41424943532043415252494552204B4B4120),
  (0x1601, 0x43414E414449414E2053594C4C41424943532043415252494552204B4B20),
  (0x1602, 0x43414E414449414E2053594C4C41424943532043415252494552204E5520),
  (0x1603, 0x43414E414449414E2053594C4C41424943532043415252494552204E4F20),
  (0x1604, 0x43414E414449414E2053594C4C41424943532043415252494552204E4520),
  (0x1605, 0x43414E414449414E2053594C4C41424943532043415252494552204E454520),
  (0x1606, 0x43414E414449414E2053594C4C41424943532043415252494552204E4920),
  (0x1607, 0x43414E414449414E2053594C4C41424943532043415252494552204E4120),
  (0x1608, 0x43414E414449414E2053594C4C41424943532043415252494552204D5520),
  (0x1609, 0x43414E414449414E2053594C4C41424943532043415252494552204D4F20),
  (0x160A, 0x43414E414449414E2053594C4C41424943532043415252494552204D4520),
  (0x160B, 0x43414E414449414E2053594C4C41424943532043415252494552204D454520),
  (0x160C, 0x43414E414449414E2053594C4C41424943532043415252494552204D4920),
  (0x160D, 0x43414E414449414E2053594C4C41424943532043415252494552204D4120),
  (0x160E, 0x43414E414449414E2053594C4C4142494353204341525249455220595520),
  (0x160F, 0x43414E414449414E2053594C4C4142494353204341525249455220594F20),
  (0x1610, 0x43414E414449414E2053594C4C4142494353204341525249455220594520),
  (0x1611, 0x43414E414449414E2053594C4C414249435320434152524945522059454520),
  (0x1612, 0x43414E414449414E2053594C4C4142494353204341525249455220594920),
  (0x1613, 0x43414E414449414E2053594C4C4142494353204341525249455220594120),
  (0x1614, 0x43414E414449414E2053594C4C41424943532043415252494552204A5520),
  (0x1615, 0x43414E414449414E2053594C4C414249435320534159495349204A5520),
  (0x1616, 0x43414E414449414E2053594C4C41424943532043415252494552204A4F20),
  (0x1617, 0x43414E414449414E2053594C4C41424943532043415252494552204A4520),
  (0x1618, 0x43414E414449414E2053594C4C41424943532043415252494552204A454520),
  (0x1619, 0x43414E414449414E2053594C4C41424943532043415252494552204A4920),
  (0x161A, 0x43414E414449414E2053594C4C414249435320534159495349204A4920),
  (0x161B, 0x43414E414449414E2053594C4C41424943532043415252494552204A4120),
  (0x161C, 0x43414E414449414E2053594C4C41424943532043415252494552204A4A5520),
  (0x161D, 0x43414E414449414E2053594C4C41424943532043415252494552204A4A4F20),
  (0x161E, 0x43414E414449414E2053594C4C41424943532043415252494552204A4A4520),
  (0x161F, 0x43414E414449414E2053594C4C41424943532043415252494552204A4A454520)]
def names_77 : List (Nat × Nat) := [
  (0x1620, 0x43414E414449414E2053594C4C41424943532043415252494552204A4A4920),
  (0x1621, 0x43414E414449414E2053594C4C41424943532043415252494552204A4A4120),
  (0x1622, 0x43414E414449414E2053594C4C41424943532043415252494552204C5520),
  (0x1623, 0x43414E414449414E2053594C4C41424943532043415252494552204C4F20),
  (0x1624, 0x43414E414449414E2053594C4C41424943532043415252494552204C4520),
  (0x1625, 0x43414E414449414E2053594C4C41424943532043415252494552204C454520),
  (0x1626, 0x43414E414449414E2053594C4C41424943532043415252494552204C4920),
  (0x1627, 0x43414E414449414E2053594C4C41424943532043415252494552204C4120),
  (0x1628, 0x43414E414449414E2053594C4C4142494353204341525249455220444C5520),
  (0x1629, 0x43414E414449414E2053594C4C4142494353204341525249455220444C4F20),
  (0x162A, 0x43414E414449414E2053594C4C4142494353204341525249455220444C4520),
  (0x162B, 0x43414E414449414E2053594C4C4142494353204341525249455220444C454520),
  (0x162C, 0x43414E414449414E2053594C4C4142494353204341525249455220444C4920),
  (0x162D, 0x43414E414449414E2053594C4C4142494353204341525249455220444C4120),
  (0x162E, 0x43414E414449414E2053594C4C41424943532043415252494552204C485520),
  (0x162F, 0x43414E414449414E2053594C4C41424943532043415252494552204C484F20),
  (0x1630, 0x43414E414449414E2053594C4C41424943532043415252494552204C484520),
  (0x1631, 0x43414E414449414E2053594C4C41424943532043415252494552204C48454520),
  (0x1632, 0x43414E414449414E2053594C4C41424943532043415252494552204C484920),
  (0x1633, 0x43414E414449414E2053594C4C41424943532043415252494552204C484120),
  (0x1634, 0x43414E414449414E2053594C4C4142494353204341525249455220544C485520),
  (0x1635, 0x43414E414449414E2053594C4C4142494353204341525249455220544C484F20),
  (0x1636, 0x43414E414449414E2053594C4C4142494353204341525249455220544C484520),
  (0x1637, 0x43414E414449414E2053594C4C4142494353204341525249455220544C48454520),
  (0x1638, 0x43414E414449414E2053594C4C4142494353204341525249455220544C484920),
  (0x1639, 0x43414E414449414E2053594C4C4142494353204341525249455220544C484120),
  (0x163A, 0x43414E414449414E2053594C4C4142494353204341525249455220544C5520),
  (0x163B, 0x43414E414449414E2053594C4C4142494353204341525249455220544C4F20),
  (0x163C, 0x43414E414449414E2053594C4C4142494353204341525249455220544C4520),
  (0x163D, 0x43414E414449414E2053594C4C4142494353204341525249455220544C454520),
  (0x163E, 0x43414E414449414E2053594C4C4142494353204341525249455220544C4920),
  (0x163F, 0x43414E414449414E2053594C4C4142494353204341525249455220544C4120),
  (0x1640, 0x43414E414449414E2053594C4C41424943532043415252494552205A5520),
  (0x1641, 0x43414E414449414E2053594C4C41424943532043415252494552205A4F20),
  (0x1642, 0x43414E414449414E2053594C4C41424943532043415252494552205A4520),
  (0x1643, 0x43414E414449414E2053594C4C41424943532043415252494552205A454520),
  (0x1644, 0x43414E414449414E2053594C4C41424943532043415252494552205A4920),
  (0x1645, 0x43414E414449414E2053594C4C41424943532043415252494552205A4120),
  (0x1646, 0x43414E414449414E2053594C4C41424943532043415252494552205A20),
  (0x1647, 0x43414E414449414E2053594C4C4142494353204341525249455220494E495449414C205A20),
  (0x1648, 0x43414E414449414E2053594C4C4142494353204341525249455220445A5520),
  (0x1649, 0x43414E414449414E2053594C4C4142494353204341525249455220445A4F20),
  (0x164A, 0x43414E414449414E2053594C4C4142494353204341525249455220445A4520),
  (0x164B, 0x43414E414449414E2053594C4C4142494353204341525249455220445A454520),
  (0x164C, 0x43414E414449414E2053594C4C4142494353204341525249455220445A4920),
  (0x164D, 0x43414E414449414E2053594C4C4142494353204341525249455220445A4120),
  (0x164E, 0x43414E414449414E2053594C4C4142494353204341525249455220535520),
  (0x164F, 0x43414E414449414E2053594C4C4142494353204341525249455220534F20),
  (0x1650, 0x43414E414449414E2053594C4C4142494353204341525249455220534520),
  (0x1651, 0x43414E414449414E2053594C4C414249435320434152524945522053454520),
  (0x1652, 0x43414E414449414E2053594C4C4142494353204341525249455220534920),
  (0x1653, 0x43414E414449414E2053594C4C4142494353204341525249455220534120),
  (0x1654, 0x43414E414449414E2053594C4C414249435320434152524945522053485520),
  (0x1655, 0x43414E414449414E2053594C4C414249435320434152524945522053484F20),
  (0x1656, 0x43414E414449414E2053594C4C414249435320434152524945522053484520),
  (0x1657, 0x43414E414449414E2053594C4C41424943532043415252494552205348454520),
  (0x1658, 0x43414E414449414E2053594C4C414249435320434152524945522053484920),
  (0x1659, 0x43414E414449414E2053594C4C414249435320434152524945522053484120),
  (0x165A, 0x43414E414449414E2053594C4C4142494353204341525249455220534820),
  (0x165B, 0x43414E414449414E2053594C4C414249435320434152524945522054535520),
  (0x165C, 0x43414E414449414E2053594C4C414249435320434152524945522054534F20),
  (0x165D, 0x43414E414449414E2053594C4C414249435320434152524945522054534520),
  (0x165E, 0x43414E414449414E2053594C4C41424943532043415252494552205453454520),
  (0x165F, 0x43414E414449414E2053594C4C414249435320434152524945522054534920)]
def names_78 : List (Nat × Nat) := [
  (0x1660, 0x43414E414449414E2053594C4C414249435320434152524945522054534120),
  (0x1661, 0x43414E414449414E2053594C4C414249435320434152524945522043485520),
  (0x1662, 0x43414E414449414E2053594C4C414249435320434152524945522043484F20),
  (0x1663, 0x43414E414449414E2053594C4C414249435320434152524945522043484520),
  (0x1664, 0x43414E414449414E2053594C4C41424943532043415252494552204348454520),
  (0x1665, 0x43414E414449414E2053594C4C414249435320434152524945522043484920),
  (0x1666, 0x43414E414449414E2053594C4C414249435320434152524945522043484120),
  (0x1667, 0x43414E414449414E2053594C4C41424943532043415252494552205454535520),
  (0x1668, 0x43414E414449414E2053594C4C41424943532043415252494552205454534F20),
  (0x1669, 0x43414E414449414E2053594C4C41424943532043415252494552205454534520),
  (0x166A, 0x43414E414449414E2053594C4C4142494353204341525249455220545453454520),
  (0x166B, 0x43414E414449414E2053594C4C41424943532043415252494552205454534920),
  (0x166C, 0x43414E414449414E2053594C4C41424943532043415252494552205454534120),
  (0x166D, 0x43414E414449414E2053594C4C414249435320434849205349474E20),
  (0x166E, 0x43414E414449414E2053594C4C41424943532046554C4C2053544F5020),
  (0x166F, 0x43414E414449414E2053594C4C41424943532051414920),
  (0x1670, 0x43414E414449414E2053594C4C4142494353204E47414920),
  (0x1671, 0x43414E414449414E2053594C4C4142494353204E4E474920),
  (0x1672, 0x43414E414449414E2053594C4C4142494353204E4E47494920),
  (0x1673, 0x43414E414449414E2053594C4C4142494353204E4E474F20),
  (0x1674, 0x43414E414449414E2053594C4C4142494353204E4E474F4F20),
  (0x1675, 0x43414E414449414E2053594C4C4142494353204E4E474120),
  (0x1676, 0x43414E414449414E2053594C4C4142494353204E4E47414120),
  (0x1677, 0x43414E414449414E2053594C4C414249435320574F4F44532D4352454520544857454520),
  (0x1678, 0x43414E414449414E2053594C4C414249435320574F4F44532D43524545205448574920),
  (0x1679, 0x43414E414449414E2053594C4C414249435320574F4F44532D4352454520544857494920),
  (0x167A, 0x43414E414449414E2053594C4C414249435320574F4F44532D43524545205448574F20),
  (0x167B, 0x43414E414449414E2053594C4C414249435320574F4F44532D43524545205448574F4F20),
  (0x167C, 0x43414E414449414E2053594C4C414249435320574F4F44532D43524545205448574120),
  (0x167D, 0x43414E414449414E2053594C4C414249435320574F4F44532D4352454520544857414120),
  (0x167E, 0x43414E414449414E2053594C4C414249435320574F4F44532D435245452046494E414C20544820),
  (0x167F, 0x43414E414449414E2053594C4C414249435320424C41434B464F4F54205720),
  (0x1680, 0x4F4748414D205350414345204D41524B20),
  (0x1681, 0x4F4748414D204C455454455220424549544820),
  (0x1682, 0x4F4748414D204C4554544552204C55495320),
  (0x1683, 0x4F4748414D204C455454455220464541524E20),
  (0x1684, 0x4F4748414D204C4554544552205341494C20),
  (0x1685, 0x4F4748414D204C4554544552204E494F4E20),
  (0x1686, 0x4F4748414D204C4554544552205541544820),
  (0x1687, 0x4F4748414D204C4554544552204441495220),
  (0x1688, 0x4F4748414D204C45545445522054494E4E4520),
  (0x1689, 0x4F4748414D204C455454455220434F4C4C20),
  (0x168A, 0x4F4748414D204C455454455220434549525420),
  (0x168B, 0x4F4748414D204C4554544552204D55494E20),
  (0x168C, 0x4F4748414D204C455454455220474F525420),
  (0x168D, 0x4F4748414D204C4554544552204E47454144414C20),
  (0x168E, 0x4F4748414D204C45545445522053545241494620),
  (0x168F, 0x4F4748414D204C4554544552205255495320),
  (0x1690, 0x4F4748414D204C45545445522041494C4D20),
  (0x1691, 0x4F4748414D204C4554544552204F4E4E20),
  (0x1692, 0x4F4748414D204C455454455220555220),
  (0x1693, 0x4F4748414D204C4554544552204541444841444820),
  (0x1694, 0x4F4748414D204C455454455220494F444841444820),
  (0x1695, 0x4F4748414D204C4554544552204541424841444820),
  (0x1696, 0x4F4748414D204C4554544552204F5220),
  (0x1697, 0x4F4748414D204C45545445522055494C4C45414E4E20),
  (0x1698, 0x4F4748414D204C4554544552204946494E20),
  (0x1699, 0x4F4748414D204C45545445522045414D48414E43484F4C4C20),
  (0x169A, 0x4F4748414D204C455454455220504549544820),
  (0x169B, 0x4F4748414D2046454154484552204D41524B20),
  (0x169C, 0x4F4748414D2052455645525345442046454154484552204D41524B20),
  (0x16A0, 0x52554E4943204C455454455220464548552046454F48204645204620),
  (0x16A1, 0x52554E4943204C4554544552205620),
  (0x16A2, 0x52554E4943204C4554544552205552555A205552205520)]
def names_79 : List (Nat × Nat) := [
  (0x16A3, 0x52554E4943204C455454455220595220),
  (0x16A4, 0x52554E4943204C4554544552205920),
  (0x16A5, 0x52554E4943204C4554544552205720),
  (0x16A6, 0x52554E4943204C455454455220544855524953415A2054485552532054484F524E20),
  (0x16A7, 0x52554E4943204C45545445522045544820),
  (0x16A8, 0x52554E4943204C455454455220414E53555A204120),
  (0x16A9, 0x52554E4943204C4554544552204F53204F20),
  (0x16AA, 0x52554E4943204C4554544552204143204120),
  (0x16AB, 0x52554E4943204C4554544552204145534320),
  (0x16AC, 0x52554E4943204C4554544552204C4F4E472D4252414E43482D4F5353204F20),
  (0x16AD, 0x52554E4943204C45545445522053484F52542D545749472D4F5353204F20),
  (0x16AE, 0x52554E4943204C4554544552204F20),
  (0x16AF, 0x52554E4943204C4554544552204F4520),
  (0x16B0, 0x52554E4943204C4554544552204F4E20),
  (0x16B1, 0x52554E4943204C455454455220524149444F205241442052454944205220),
  (0x16B2, 0x52554E4943204C4554544552204B41554E4120),
  (0x16B3, 0x52554E4943204C45545445522043454E20),
  (0x16B4, 0x52554E4943204C4554544552204B41554E204B20),
  (0x16B5, 0x52554E4943204C4554544552204720),
  (0x16B6, 0x52554E4943204C455454455220454E4720),
  (0x16B7, 0x52554E4943204C4554544552204745424F2047594655204720),
  (0x16B8, 0x52554E4943204C45545445522047415220),
  (0x16B9, 0x52554E4943204C45545445522057554E4A4F2057594E4E205720),
  (0x16BA, 0x52554E4943204C4554544552204841474C415A204820),
  (0x16BB, 0x52554E4943204C455454455220484145474C204820),
  (0x16BC, 0x52554E4943204C4554544552204C4F4E472D4252414E43482D484147414C4C204820),
  (0x16BD, 0x52554E4943204C45545445522053484F52542D545749472D484147414C4C204820),
  (0x16BE, 0x52554E4943204C4554544552204E415544495A204E5944204E415544204E20),
  (0x16BF, 0x52554E4943204C45545445522053484F52542D545749472D4E415544204E20),
  (0x16C0, 0x52554E4943204C455454455220444F545445442D4E20),
  (0x16C1, 0x52554E4943204C4554544552204953415A20495320495353204920),
  (0x16C2, 0x52554E4943204C4554544552204520),
  (0x16C3, 0x52554E4943204C4554544552204A4552414E204A20),
  (0x16C4, 0x52554E4943204C45545445522047455220),
  (0x16C5, 0x52554E4943204C4554544552204C4F4E472D4252414E43482D415220414520),
  (0x16C6, 0x52554E4943204C45545445522053484F52542D545749472D4152204120),
  (0x16C7, 0x52554E4943204C4554544552204957415A20454F4820),
  (0x16C8, 0x52554E4943204C45545445522050455254484F2050454F525448205020),
  (0x16C9, 0x52554E4943204C455454455220414C47495A20454F4C485820),
  (0x16CA, 0x52554E4943204C455454455220534F57494C4F205320),
  (0x16CB, 0x52554E4943204C455454455220534947454C204C4F4E472D4252414E43482D534F4C205320),
  (0x16CC, 0x52554E4943204C45545445522053484F52542D545749472D534F4C205320),
  (0x16CD, 0x52554E4943204C4554544552204320),
  (0x16CE, 0x52554E4943204C4554544552205A20),
  (0x16CF, 0x52554E4943204C455454455220544957415A2054495220545952205420),
  (0x16D0, 0x52554E4943204C45545445522053484F52542D545749472D545952205420),
  (0x16D1, 0x52554E4943204C4554544552204420),
  (0x16D2, 0x52554E4943204C4554544552204245524B414E414E2042454F524320424A41524B414E204220),
  (0x16D3, 0x52554E4943204C45545445522053484F52542D545749472D424A41524B414E204220),
  (0x16D4, 0x52554E4943204C455454455220444F545445442D5020),
  (0x16D5, 0x52554E4943204C4554544552204F50454E2D5020),
  (0x16D6, 0x52554E4943204C455454455220454857415A204548204520),
  (0x16D7, 0x52554E4943204C4554544552204D414E4E415A204D414E204D20),
  (0x16D8, 0x52554E4943204C4554544552204C4F4E472D4252414E43482D4D414452204D20),
  (0x16D9, 0x52554E4943204C45545445522053484F52542D545749472D4D414452204D20),
  (0x16DA, 0x52554E4943204C4554544552204C41554B415A204C414755204C4F4752204C20),
  (0x16DB, 0x52554E4943204C455454455220444F545445442D4C20),
  (0x16DC, 0x52554E4943204C455454455220494E4757415A20),
  (0x16DD, 0x52554E4943204C455454455220494E4720),
  (0x16DE, 0x52554E4943204C455454455220444147415A2044414547204420),
  (0x16DF, 0x52554E4943204C4554544552204F5448414C414E20455448454C204F20),
  (0x16E0, 0x52554E4943204C45545445522045415220),
  (0x16E1, 0x52554E4943204C455454455220494F5220),
  (0x16E2, 0x52554E4943204C4554544552204357454F52544820)]
def names_80 : List (Nat × Nat) := [
  (0x16E3, 0x52554E4943204C45545445522043414C4320),
  (0x16E4, 0x52554E4943204C4554544552204345414C4320),
  (0x16E5, 0x52554E4943204C4554544552205354414E20),
  (0x16E6, 0x52554E4943204C4554544552204C4F4E472D4252414E43482D595220),
  (0x16E7, 0x52554E4943204C45545445522053484F52542D545749472D595220),
  (0x16E8, 0x52554E4943204C4554544552204943454C414E4449432D595220),
  (0x16E9, 0x52554E4943204C4554544552205120),
  (0x16EA, 0x52554E4943204C4554544552205820),
  (0x16EB, 0x52554E49432053494E474C452050554E4354554154494F4E20),
  (0x16EC, 0x52554E4943204D554C5449504C452050554E4354554154494F4E20),
  (0x16ED, 0x52554E49432043524F53532050554E4354554154494F4E20),
  (0x16EE, 0x52554E49432041524C4155472053594D424F4C20),
  (0x16EF, 0x52554E4943205456494D414455522053594D424F4C20),
  (0x16F0, 0x52554E49432042454C4754484F522053594D424F4C20),
  (0x16F1, 0x52554E4943204C4554544552204B20),
  (0x16F2, 0x52554E4943204C455454455220534820),
  (0x16F3, 0x52554E4943204C4554544552204F4F20),
  (0x16F4, 0x52554E4943204C4554544552204652414E4B53204341534B4554204F5320),
  (0x16F5, 0x52554E4943204C4554544552204652414E4B53204341534B455420495320),
  (0x16F6, 0x52554E4943204C4554544552204652414E4B53204341534B455420454820),
  (0x16F7, 0x52554E4943204C4554544552204652414E4B53204341534B455420414320),
  (0x16F8, 0x52554E4943204C4554544552204652414E4B53204341534B4554204145534320),
  (0x1700, 0x544147414C4F47204C4554544552204120),
  (0x1701, 0x544147414C4F47204C4554544552204920),
  (0x1702, 0x544147414C4F47204C4554544552205520),
  (0x1703, 0x544147414C4F47204C4554544552204B4120),
  (0x1704, 0x544147414C4F47204C455454455220474120),
  (0x1705, 0x544147414C4F47204C4554544552204E474120),
  (0x1706, 0x544147414C4F47204C455454455220544120),
  (0x1707, 0x544147414C4F47204C455454455220444120),
  (0x1708, 0x544147414C4F47204C4554544552204E4120),
  (0x1709, 0x544147414C4F47204C455454455220504120),
  (0x170A, 0x544147414C4F47204C455454455220424120),
  (0x170B, 0x544147414C4F47204C4554544552204D4120),
  (0x170C, 0x544147414C4F47204C455454455220594120),
  (0x170E, 0x544147414C4F47204C4554544552204C4120),
  (0x170F, 0x544147414C4F47204C455454455220574120),
  (0x1710, 0x544147414C4F47204C455454455220534120),
  (0x1711, 0x544147414C4F47204C455454455220484120),
  (0x1712, 0x544147414C4F4720564F57454C205349474E204920),
  (0x1713, 0x544147414C4F4720564F57454C205349474E205520),
  (0x1714, 0x544147414C4F47205349474E20564952414D4120),
  (0x1720, 0x48414E554E4F4F204C4554544552204120),
  (0x1721, 0x48414E554E4F4F204C4554544552204920),
  (0x1722, 0x48414E554E4F4F204C4554544552205520),
  (0x1723, 0x48414E554E4F4F204C4554544552204B4120),
  (0x1724, 0x48414E554E4F4F204C455454455220474120),
  (0x1725, 0x48414E554E4F4F204C4554544552204E474120),
  (0x1726, 0x48414E554E4F4F204C455454455220544120),
  (0x1727, 0x48414E554E4F4F204C455454455220444120),
  (0x1728, 0x48414E554E4F4F204C4554544552204E4120),
  (0x1729, 0x48414E554E4F4F204C455454455220504120),
  (0x172A, 0x48414E554E4F4F204C455454455220424120),
  (0x172B, 0x48414E554E4F4F204C4554544552204D4120),
  (0x172C, 0x48414E554E4F4F204C455454455220594120),
  (0x172D, 0x48414E554E4F4F204C455454455220524120),
  (0x172E, 0x48414E554E4F4F204C4554544552204C4120),
  (0x172F, 0x48414E554E4F4F204C455454455220574120),
  (0x1730, 0x48414E554E4F4F204C455454455220534120),
  (0x1731, 0x48414E554E4F4F204C455454455220484120),
  (0x1732, 0x48414E554E4F4F20564F57454C205349474E204920),
  (0x1733, 0x48414E554E4F4F20564F57454C205349474E205520),
  (0x1734, 0x48414E554E4F4F205349474E2050414D5544504F4420),
  (0x1735, 0x5048494C495050494E452053494E474C452050554E4354554154494F4E20)]
def names_81 : List (Nat × Nat) := [
  (0x1736, 0x5048494C495050494E4520444F55424C452050554E4354554154494F4E20),
  (0x1740, 0x4255484944204C4554544552204120),
  (0x1741, 0x4255484944204C4554544552204920),
  (0x1742, 0x4255484944204C4554544552205520),
  (0x1743, 0x4255484944204C4554544552204B4120),
  (0x1744, 0x4255484944204C455454455220474120),
  (0x1745, 0x4255484944204C4554544552204E474120),
  (0x1746, 0x4255484944204C455454455220544120),
  (0x1747, 0x4255484944204C455454455220444120),
  (0x1748, 0x4255484944204C4554544552204E4120),
  (0x1749, 0x4255484944204C455454455220504120),
  (0x174A, 0x4255484944204C455454455220424120),
  (0x174B, 0x4255484944204C4554544552204D4120),
  (0x174C, 0x4255484944204C455454455220594120),
  (0x174D, 0x4255484944204C455454455220524120),
  (0x174E, 0x4255484944204C4554544552204C4120),
  (0x174F, 0x4255484944204C455454455220574120),
  (0x1750, 0x4255484944204C455454455220534120),
  (0x1751, 0x4255484944204C455454455220484120),
  (0x1752, 0x425548494420564F57454C205349474E204920),
  (0x1753, 0x425548494420564F57454C205349474E205520),
  (0x1760, 0x54414742414E5741204C4554544552204120),
  (0x1761, 0x54414742414E5741204C4554544552204920),
  (0x1762, 0x54414742414E5741204C4554544552205520),
  (0x1763, 0x54414742414E5741204C4554544552204B4120),
  (0x1764, 0x54414742414E5741204C455454455220474120),
  (0x1765, 0x54414742414E5741204C4554544552204E474120),
  (0x1766, 0x54414742414E5741204C455454455220544120),
  (0x1767, 0x54414742414E5741204C455454455220444120),
  (0x1768, 0x54414742414E5741204C4554544552204E4120),
  (0x1769, 0x54414742414E5741204C455454455220504120),
  (0x176A, 0x54414742414E5741204C455454455220424120),
  (0x176B, 0x54414742414E5741204C4554544552204D4120),
  (0x176C, 0x54414742414E5741204C455454455220594120),
  (0x176E, 0x54414742414E5741204C4554544552204C4120),
  (0x176F, 0x54414742414E5741204C455454455220574120),
  (0x1770, 0x54414742414E5741204C455454455220534120),
  (0x1772, 0x54414742414E574120564F57454C205349474E204920),
  (0x1773, 0x54414742414E574120564F57454C205349474E205520),
  (0x1780, 0x4B484D4552204C4554544552204B4120),
  (0x1781, 0x4B484D4552204C4554544552204B484120),
  (0x1782, 0x4B484D4552204C4554544552204B4F20),
  (0x1783, 0x4B484D4552204C4554544552204B484F20),
  (0x1784, 0x4B484D4552204C4554544552204E474F20),
  (0x1785, 0x4B484D4552204C455454455220434120),
  (0x1786, 0x4B484D4552204C45545445522043484120),
  (0x1787, 0x4B484D4552204C455454455220434F20),
  (0x1788, 0x4B484D4552204C45545445522043484F20),
  (0x1789, 0x4B484D4552204C4554544552204E594F20),
  (0x178A, 0x4B484D4552204C455454455220444120),
  (0x178B, 0x4B484D4552204C4554544552205454484120),
  (0x178C, 0x4B484D4552204C455454455220444F20),
  (0x178D, 0x4B484D4552204C4554544552205454484F20),
  (0x178E, 0x4B484D4552204C4554544552204E4E4F20),
  (0x178F, 0x4B484D4552204C455454455220544120),
  (0x1790, 0x4B484D4552204C45545445522054484120),
  (0x1791, 0x4B484D4552204C455454455220544F20),
  (0x1792, 0x4B484D4552204C45545445522054484F20),
  (0x1793, 0x4B484D4552204C4554544552204E4F20),
  (0x1794, 0x4B484D4552204C455454455220424120),
  (0x1795, 0x4B484D4552204C45545445522050484120),
  (0x1796, 0x4B484D4552204C455454455220504F20),
  (0x1797, 0x4B484D4552204C45545445522050484F20),
  (0x1798, 0x4B484D4552204C4554544552204D4F20)]
def names_82 : List (Nat × Nat) := [
  (0x1799, 0x4B484D4552204C455454455220594F20),
  (0x179A, 0x4B484D4552204C455454455220524F20),
  (0x179B, 0x4B484D4552204C4554544552204C4F20),
  (0x179C, 0x4B484D4552204C455454455220564F20),
  (0x179D, 0x4B484D4552204C45545445522053484120),
  (0x179E, 0x4B484D4552204C45545445522053534F20),
  (0x179F, 0x4B484D4552204C455454455220534120),
  (0x17A0, 0x4B484D4552204C455454455220484120),
  (0x17A1, 0x4B484D4552204C4554544552204C4120),
  (0x17A2, 0x4B484D4552204C455454455220514120),
  (0x17A3, 0x4B484D455220494E444550454E44454E5420564F57454C2051415120),
  (0x17A4, 0x4B484D455220494E444550454E44454E5420564F57454C2051414120),
  (0x17A5, 0x4B484D455220494E444550454E44454E5420564F57454C20514920),
  (0x17A6, 0x4B484D455220494E444550454E44454E5420564F57454C2051494920),
  (0x17A7, 0x4B484D455220494E444550454E44454E5420564F57454C20515520),
  (0x17A8, 0x4B484D455220494E444550454E44454E5420564F57454C2051554B20),
  (0x17A9, 0x4B484D455220494E444550454E44454E5420564F57454C2051555520),
  (0x17AA, 0x4B484D455220494E444550454E44454E5420564F57454C205155555620),
  (0x17AB, 0x4B484D455220494E444550454E44454E5420564F57454C20525920),
  (0x17AC, 0x4B484D455220494E444550454E44454E5420564F57454C2052595920),
  (0x17AD, 0x4B484D455220494E444550454E44454E5420564F57454C204C5920),
  (0x17AE, 0x4B484D455220494E444550454E44454E5420564F57454C204C595920),
  (0x17AF, 0x4B484D455220494E444550454E44454E5420564F57454C20514520),
  (0x17B0, 0x4B484D455220494E444550454E44454E5420564F57454C2051414920),
  (0x17B1, 0x4B484D455220494E444550454E44454E5420564F57454C20514F4F2054595045204F4E4520),
  (0x17B2, 0x4B484D455220494E444550454E44454E5420564F57454C20514F4F20545950452054574F20),
  (0x17B3, 0x4B484D455220494E444550454E44454E5420564F57454C2051415520),
  (0x17B4, 0x4B484D455220564F57454C20494E484552454E5420415120),
  (0x17B5, 0x4B484D455220564F57454C20494E484552454E5420414120),
  (0x17B6, 0x4B484D455220564F57454C205349474E20414120),
  (0x17B7, 0x4B484D455220564F57454C205349474E204920),
  (0x17B8, 0x4B484D455220564F57454C205349474E20494920),
  (0x17B9, 0x4B484D455220564F57454C205349474E205920),
  (0x17BA, 0x4B484D455220564F57454C205349474E20595920),
  (0x17BB, 0x4B484D455220564F57454C205349474E205520),
  (0x17BC, 0x4B484D455220564F57454C205349474E20555520),
  (0x17BD, 0x4B484D455220564F57454C205349474E20554120),
  (0x17BE, 0x4B484D455220564F57454C205349474E204F4520),
  (0x17BF, 0x4B484D455220564F57454C205349474E20594120),
  (0x17C0, 0x4B484D455220564F57454C205349474E20494520),
  (0x17C1, 0x4B484D455220564F57454C205349474E204520),
  (0x17C2, 0x4B484D455220564F57454C205349474E20414520),
  (0x17C3, 0x4B484D455220564F57454C205349474E20414920),
  (0x17C4, 0x4B484D455220564F57454C205349474E204F4F20),
  (0x17C5, 0x4B484D455220564F57454C205349474E20415520),
  (0x17C6, 0x4B484D4552205349474E204E494B4148495420),
  (0x17C7, 0x4B484D4552205349474E20524541484D554B20),
  (0x17C8, 0x4B484D4552205349474E205955554B414C454150494E545520),
  (0x17C9, 0x4B484D4552205349474E204D555553494B41544F414E20),
  (0x17CA, 0x4B484D4552205349474E205452494953415020),
  (0x17CB, 0x4B484D4552205349474E2042414E544F4320),
  (0x17CC, 0x4B484D4552205349474E20524F42415420),
  (0x17CD, 0x4B484D4552205349474E20544F414E44414B4849415420),
  (0x17CE, 0x4B484D4552205349474E204B414B4142415420),
  (0x17CF, 0x4B484D4552205349474E20414853444120),
  (0x17D0, 0x4B484D4552205349474E2053414D594F4B2053414E4E594120),
  (0x17D1, 0x4B484D4552205349474E2056495249414D20),
  (0x17D2, 0x4B484D4552205349474E20434F454E4720),
  (0x17D3, 0x4B484D4552205349474E2042415448414D4153415420),
  (0x17D4, 0x4B484D4552205349474E204B48414E20),
  (0x17D5, 0x4B484D4552205349474E2042415249594F4F53414E20),
  (0x17D6, 0x4B484D4552205349474E2043414D4E554320504949204B55554820),
  (0x17D7, 0x4B484D4552205349474E204C454B20544F4F20),
  (0x17D8, 0x4B484D4552205349474E2042455959414C20)]
def names_83 : List (Nat × Nat) := [
  (0x17D9, 0x4B484D4552205349474E2050484E41454B204D55414E20),
  (0x17DA, 0x4B484D4552205349474E204B4F4F4D55555420),
  (0x17DB, 0x4B484D45522043555252454E43592053594D424F4C205249454C20),
  (0x17DC, 0x4B484D4552205349474E204156414B5241484153414E594120),
  (0x17DD, 0x4B484D4552205349474E20415454484143414E20),
  (0x17E0, 0x4B484D4552204449474954205A45524F20),
  (0x17E1, 0x4B484D4552204449474954204F4E4520),
  (0x17E2, 0x4B484D45522044494749542054574F20),
  (0x17E3, 0x4B484D455220444947495420544852454520),
  (0x17E4, 0x4B484D455220444947495420464F555220),
  (0x17E5, 0x4B484D4552204449474954204649564520),
  (0x17E6, 0x4B484D45522044494749542053495820),
  (0x17E7, 0x4B484D455220444947495420534556454E20),
  (0x17E8, 0x4B484D455220444947495420454947485420),
  (0x17E9, 0x4B484D4552204449474954204E494E4520),
  (0x17F0, 0x4B484D45522053594D424F4C204C454B20415454414B20534F4E20),
  (0x17F1, 0x4B484D45522053594D424F4C204C454B20415454414B204D554F5920),
  (0x17F2, 0x4B484D45522053594D424F4C204C454B20415454414B2050494920),
  (0x17F3, 0x4B484D45522053594D424F4C204C454B20415454414B2042454920),
  (0x17F4, 0x4B484D45522053594D424F4C204C454B20415454414B2042554F4E20),
  (0x17F5, 0x4B484D45522053594D424F4C204C454B20415454414B205052414D20),
  (0x17F6, 0x4B484D45522053594D424F4C204C454B20415454414B205052414D2D4D554F5920),
  (0x17F7, 0x4B484D45522053594D424F4C204C454B20415454414B205052414D2D50494920),
  (0x17F8, 0x4B484D45522053594D424F4C204C454B20415454414B205052414D2D42454920),
  (0x17F9, 0x4B484D45522053594D424F4C204C454B20415454414B205052414D2D42554F4E20),
  (0x1800, 0x4D4F4E474F4C49414E20424952474120),
  (0x1801, 0x4D4F4E474F4C49414E20454C4C495053495320),
  (0x1802, 0x4D4F4E474F4C49414E20434F4D4D4120),
  (0x1803, 0x4D4F4E474F4C49414E2046554C4C2053544F5020),
  (0x1804, 0x4D4F4E474F4C49414E20434F4C4F4E20),
  (0x1805, 0x4D4F4E474F4C49414E20464F555220444F545320),
  (0x1806, 0x4D4F4E474F4C49414E20544F444F20534F46542048595048454E20),
  (0x1807, 0x4D4F4E474F4C49414E20534942452053594C4C41424C4520424F554E44415259204D41524B455220),
  (0x1808, 0x4D4F4E474F4C49414E204D414E43485520434F4D4D4120),
  (0x1809, 0x4D4F4E474F4C49414E204D414E4348552046554C4C2053544F5020),
  (0x180A, 0x4D4F4E474F4C49414E204E495255475520),
  (0x180B, 0x4D4F4E474F4C49414E204652454520564152494154494F4E2053454C4543544F52204F4E4520),
  (0x180C, 0x4D4F4E474F4C49414E204652454520564152494154494F4E2053454C4543544F522054574F20),
  (0x180D, 0x4D4F4E474F4C49414E204652454520564152494154494F4E2053454C4543544F5220544852454520),
  (0x180E, 0x4D4F4E474F4C49414E20564F57454C20534550415241544F5220),
  (0x1810, 0x4D4F4E474F4C49414E204449474954205A45524F20),
  (0x1811, 0x4D4F4E474F4C49414E204449474954204F4E4520),
  (0x1812, 0x4D4F4E474F4C49414E2044494749542054574F20),
  (0x1813, 0x4D4F4E474F4C49414E20444947495420544852454520),
  (0x1814, 0x4D4F4E474F4C49414E20444947495420464F555220),
  (0x1815, 0x4D4F4E474F4C49414E204449474954204649564520),
  (0x1816, 0x4D4F4E474F4C49414E2044494749542053495820),
  (0x1817, 0x4D4F4E474F4C49414E20444947495420534556454E20),
  (0x1818, 0x4D4F4E474F4C49414E20444947495420454947485420),
  (0x1819, 0x4D4F4E474F4C49414E204449474954204E494E4520),
  (0x1820, 0x4D4F4E474F4C49414E204C4554544552204120),
  (0x1821, 0x4D4F4E474F4C49414E204C4554544552204520),
  (0x1822, 0x4D4F4E474F4C49414E204C4554544552204920),
  (0x1823, 0x4D4F4E474F4C49414E204C4554544552204F20),
  (0x1824, 0x4D4F4E474F4C49414E204C4554544552205520),
  (0x1825, 0x4D4F4E474F4C49414E204C4554544552204F4520),
  (0x1826, 0x4D4F4E474F4C49414E204C455454455220554520),
  (0x1827, 0x4D4F4E474F4C49414E204C455454455220454520),
  (0x1828, 0x4D4F4E474F4C49414E204C4554544552204E4120),
  (0x1829, 0x4D4F4E474F4C49414E204C455454455220414E4720),
  (0x182A, 0x4D4F4E474F4C49414E204C455454455220424120),
  (0x182B, 0x4D4F4E474F4C49414E204C455454455220504120),
  (0x182C, 0x4D4F4E474F4C49414E204C455454455220514120),
  (0x182D, 0x4D4F4E474F4C49414E204C455454455220474120)]
def names_84 : List (Nat × Nat) := [
  (0x182E, 0x4D4F4E474F4C49414E204C4554544552204D4120),
  (0x182F, 0x4D4F4E474F4C49414E204C4554544552204C4120),
  (0x1830, 0x4D4F4E474F4C49414E204C455454455220534120),
  (0x1831, 0x4D4F4E474F4C49414E204C45545445522053484120),
  (0x1832, 0x4D4F4E474F4C49414E204C455454455220544120),
  (0x1833, 0x4D4F4E474F4C49414E204C455454455220444120),
  (0x1834, 0x4D4F4E474F4C49414E204C45545445522043484120),
  (0x1835, 0x4D4F4E474F4C49414E204C4554544552204A4120),
  (0x1836, 0x4D4F4E474F4C49414E204C455454455220594120),
  (0x1837, 0x4D4F4E474F4C49414E204C455454455220524120),
  (0x1838, 0x4D4F4E474F4C49414E204C455454455220574120),
  (0x1839, 0x4D4F4E474F4C49414E204C455454455220464120),
  (0x183A, 0x4D4F4E474F4C49414E204C4554544552204B4120),
  (0x183B, 0x4D4F4E474F4C49414E204C4554544552204B484120),
  (0x183C, 0x4D4F4E474F4C49414E204C45545445522054534120),
  (0x183D, 0x4D4F4E474F4C49414E204C4554544552205A4120),
  (0x183E, 0x4D4F4E474F4C49414E204C45545445522048414120),
  (0x183F, 0x4D4F4E474F4C49414E204C4554544552205A524120),
  (0x1840, 0x4D4F4E474F4C49414E204C4554544552204C484120),
  (0x1841, 0x4D4F4E474F4C49414E204C4554544552205A484920),
  (0x1842, 0x4D4F4E474F4C49414E204C45545445522043484920),
  (0x1843, 0x4D4F4E474F4C49414E204C455454455220544F444F204C4F4E4720564F57454C205349474E20),
  (0x1844, 0x4D4F4E474F4C49414E204C455454455220544F444F204520),
  (0x1845, 0x4D4F4E474F4C49414E204C455454455220544F444F204920),
  (0x1846, 0x4D4F4E474F4C49414E204C455454455220544F444F204F20),
  (0x1847, 0x4D4F4E474F4C49414E204C455454455220544F444F205520),
  (0x1848, 0x4D4F4E474F4C49414E204C455454455220544F444F204F4520),
  (0x1849, 0x4D4F4E474F4C49414E204C455454455220544F444F20554520),
  (0x184A, 0x4D4F4E474F4C49414E204C455454455220544F444F20414E4720),
  (0x184B, 0x4D4F4E474F4C49414E204C455454455220544F444F20424120),
  (0x184C, 0x4D4F4E474F4C49414E204C455454455220544F444F20504120),
  (0x184D, 0x4D4F4E474F4C49414E204C455454455220544F444F20514120),
  (0x184E, 0x4D4F4E474F4C49414E204C455454455220544F444F20474120),
  (0x184F, 0x4D4F4E474F4C49414E204C455454455220544F444F204D4120),
  (0x1850, 0x4D4F4E474F4C49414E204C455454455220544F444F20544120),
  (0x1851, 0x4D4F4E474F4C49414E204C455454455220544F444F20444120),
  (0x1852, 0x4D4F4E474F4C49414E204C455454455220544F444F2043484120),
  (0x1853, 0x4D4F4E474F4C49414E204C455454455220544F444F204A4120),
  (0x1854, 0x4D4F4E474F4C49414E204C455454455220544F444F2054534120),
  (0x1855, 0x4D4F4E474F4C49414E204C455454455220544F444F20594120),
  (0x1856, 0x4D4F4E474F4C49414E204C455454455220544F444F20574120),
  (0x1857, 0x4D4F4E474F4C49414E204C455454455220544F444F204B4120),
  (0x1858, 0x4D4F4E474F4C49414E204C455454455220544F444F2047414120),
  (0x1859, 0x4D4F4E474F4C49414E204C455454455220544F444F2048414120),
  (0x185A, 0x4D4F4E474F4C49414E204C455454455220544F444F204A494120),
  (0x185B, 0x4D4F4E474F4C49414E204C455454455220544F444F204E494120),
  (0x185C, 0x4D4F4E474F4C49414E204C455454455220544F444F20445A4120),
  (0x185D, 0x4D4F4E474F4C49414E204C45545445522053494245204520),
  (0x185E, 0x4D4F4E474F4C49414E204C45545445522053494245204920),
  (0x185F, 0x4D4F4E474F4C49414E204C4554544552205349424520495920),
  (0x1860, 0x4D4F4E474F4C49414E204C4554544552205349424520554520),
  (0x1861, 0x4D4F4E474F4C49414E204C45545445522053494245205520),
  (0x1862, 0x4D4F4E474F4C49414E204C4554544552205349424520414E4720),
  (0x1863, 0x4D4F4E474F4C49414E204C45545445522053494245204B4120),
  (0x1864, 0x4D4F4E474F4C49414E204C4554544552205349424520474120),
  (0x1865, 0x4D4F4E474F4C49414E204C4554544552205349424520484120),
  (0x1866, 0x4D4F4E474F4C49414E204C4554544552205349424520504120),
  (0x1867, 0x4D4F4E474F4C49414E204C455454455220534942452053484120),
  (0x1868, 0x4D4F4E474F4C49414E204C4554544552205349424520544120),
  (0x1869, 0x4D4F4E474F4C49414E204C4554544552205349424520444120),
  (0x186A, 0x4D4F4E474F4C49414E204C45545445522053494245204A4120),
  (0x186B, 0x4D4F4E474F4C49414E204C4554544552205349424520464120),
  (0x186C, 0x4D4F4E474F4C49414E204C455454455220534942452047414120),
  (0x186D, 0x4D4F4E474F4C49414E204C455454455220534942452048414120)]
def names_85 : List (Nat × Nat) := [
  (0x186E, 0x4D4F4E474F4C49414E204C455454455220534942452054534120),
  (0x186F, 0x4D4F4E474F4C49414E204C45545445522053494245205A4120),
  (0x1870, 0x4D4F4E474F4C49414E204C455454455220534942452052414120),
  (0x1871, 0x4D4F4E474F4C49414E204C455454455220534942452043484120),
  (0x1872, 0x4D4F4E474F4C49414E204C45545445522053494245205A484120),
  (0x1873, 0x4D4F4E474F4C49414E204C4554544552204D414E434855204920),
  (0x1874, 0x4D4F4E474F4C49414E204C4554544552204D414E434855204B4120),
  (0x1875, 0x4D4F4E474F4C49414E204C4554544552204D414E43485520524120),
  (0x1876, 0x4D4F4E474F4C49414E204C4554544552204D414E43485520464120),
  (0x1877, 0x4D4F4E474F4C49414E204C4554544552204D414E434855205A484120),
  (0x1880, 0x4D4F4E474F4C49414E204C455454455220414C492047414C4920414E555356415241204F4E4520),
  (0x1881, 0x4D4F4E474F4C49414E204C455454455220414C492047414C492056495341524741204F4E4520),
  (0x1882, 0x4D4F4E474F4C49414E204C455454455220414C492047414C492044414D41525520),
  (0x1883, 0x4D4F4E474F4C49414E204C455454455220414C492047414C492055424144414D4120),
  (0x1884, 0x4D4F4E474F4C49414E204C455454455220414C492047414C4920494E5645525445442055424144414D4120),
  (0x1885, 0x4D4F4E474F4C49414E204C455454455220414C492047414C492042414C55444120),
  (0x1886, 0x4D4F4E474F4C49414E204C455454455220414C492047414C492054485245452042414C55444120),
  (0x1887, 0x4D4F4E474F4C49414E204C455454455220414C492047414C49204120),
  (0x1888, 0x4D4F4E474F4C49414E204C455454455220414C492047414C49204920),
  (0x1889, 0x4D4F4E474F4C49414E204C455454455220414C492047414C49204B4120),
  (0x188A, 0x4D4F4E474F4C49414E204C455454455220414C492047414C49204E474120),
  (0x188B, 0x4D4F4E474F4C49414E204C455454455220414C492047414C4920434120),
  (0x188C, 0x4D4F4E474F4C49414E204C455454455220414C492047414C492054544120),
  (0x188D, 0x4D4F4E474F4C49414E204C455454455220414C492047414C49205454484120),
  (0x188E, 0x4D4F4E474F4C49414E204C455454455220414C492047414C492044444120),
  (0x188F, 0x4D4F4E474F4C49414E204C455454455220414C492047414C49204E4E4120),
  (0x1890, 0x4D4F4E474F4C49414E204C455454455220414C492047414C4920544120),
  (0x1891, 0x4D4F4E474F4C49414E204C455454455220414C492047414C4920444120),
  (0x1892, 0x4D4F4E474F4C49414E204C455454455220414C492047414C4920504120),
  (0x1893, 0x4D4F4E474F4C49414E204C455454455220414C492047414C492050484120),
  (0x1894, 0x4D4F4E474F4C49414E204C455454455220414C492047414C492053534120),
  (0x1895, 0x4D4F4E474F4C49414E204C455454455220414C492047414C49205A484120),
  (0x1896, 0x4D4F4E474F4C49414E204C455454455220414C492047414C49205A4120),
  (0x1897, 0x4D4F4E474F4C49414E204C455454455220414C492047414C4920414820),
  (0x1898, 0x4D4F4E474F4C49414E204C455454455220544F444F20414C492047414C4920544120),
  (0x1899, 0x4D4F4E474F4C49414E204C455454455220544F444F20414C492047414C49205A484120),
  (0x189A, 0x4D4F4E474F4C49414E204C4554544552204D414E43485520414C492047414C492047484120),
  (0x189B, 0x4D4F4E474F4C49414E204C4554544552204D414E43485520414C492047414C49204E474120),
  (0x189C, 0x4D4F4E474F4C49414E204C4554544552204D414E43485520414C492047414C4920434120),
  (0x189D, 0x4D4F4E474F4C49414E204C4554544552204D414E43485520414C492047414C49204A484120),
  (0x189E, 0x4D4F4E474F4C49414E204C4554544552204D414E43485520414C492047414C492054544120),
  (0x189F, 0x4D4F4E474F4C49414E204C4554544552204D414E43485520414C492047414C49204444484120),
  (0x18A0, 0x4D4F4E474F4C49414E204C4554544552204D414E43485520414C492047414C4920544120),
  (0x18A1, 0x4D4F4E474F4C49414E204C4554544552204D414E43485520414C492047414C492044484120),
  (0x18A2, 0x4D4F4E474F4C49414E204C4554544552204D414E43485520414C492047414C492053534120),
  (0x18A3, 0x4D4F4E474F4C49414E204C4554544552204D414E43485520414C492047414C492043594120),
  (0x18A4, 0x4D4F4E474F4C49414E204C4554544552204D414E43485520414C492047414C49205A484120),
  (0x18A5, 0x4D4F4E474F4C49414E204C4554544552204D414E43485520414C492047414C49205A4120),
  (0x18A6, 0x4D4F4E474F4C49414E204C455454455220414C492047414C492048414C46205520),
  (0x18A7, 0x4D4F4E474F4C49414E204C455454455220414C492047414C492048414C4620594120),
  (0x18A8, 0x4D4F4E474F4C49414E204C4554544552204D414E43485520414C492047414C492042484120),
  (0x18A9, 0x4D4F4E474F4C49414E204C455454455220414C492047414C4920444147414C474120),
  (0x18AA, 0x4D4F4E474F4C49414E204C4554544552204D414E43485520414C492047414C49204C484120),
  (0x18B0, 0x43414E414449414E2053594C4C4142494353204F5920),
  (0x18B1, 0x43414E414449414E2053594C4C414249435320415920),
  (0x18B2, 0x43414E414449414E2053594C4C41424943532041415920),
  (0x18B3, 0x43414E414449414E2053594C4C41424943532057415920),
  (0x18B4, 0x43414E414449414E2053594C4C414249435320504F5920),
  (0x18B5, 0x43414E414449414E2053594C4C41424943532050415920),
  (0x18B6, 0x43414E414449414E2053594C4C41424943532050574F5920),
  (0x18B7, 0x43414E414449414E2053594C4C41424943532054415920),
  (0x18B8, 0x43414E414449414E2053594C4C4142494353204B415920),
  (0x18B9, 0x43414E414449414E2053594C4C4142494353204B57415920),
  (0x18BA, 0x43414E414449414E2053594C4C4142494353204D415920)]
def names_86 : List (Nat × Nat) := [
  (0x18BB, 0x43414E414449414E2053594C4C4142494353204E4F5920),
  (0x18BC, 0x43414E414449414E2053594C4C4142494353204E415920),
  (0x18BD, 0x43414E414449414E2053594C4C4142494353204C415920),
  (0x18BE, 0x43414E414449414E2053594C4C414249435320534F5920),
  (0x18BF, 0x43414E414449414E2053594C4C41424943532053415920),
  (0x18C0, 0x43414E414449414E2053594C4C41424943532053484F5920),
  (0x18C1, 0x43414E414449414E2053594C4C4142494353205348415920),
  (0x18C2, 0x43414E414449414E2053594C4C4142494353205348574F5920),
  (0x18C3, 0x43414E414449414E2053594C4C414249435320594F5920),
  (0x18C4, 0x43414E414449414E2053594C4C41424943532059415920),
  (0x18C5, 0x43414E414449414E2053594C4C41424943532052415920),
  (0x18C6, 0x43414E414449414E2053594C4C4142494353204E574920),
  (0x18C7, 0x43414E414449414E2053594C4C4142494353204F4A4942574159204E574920),
  (0x18C8, 0x43414E414449414E2053594C4C4142494353204E57494920),
  (0x18C9, 0x43414E414449414E2053594C4C4142494353204F4A4942574159204E57494920),
  (0x18CA, 0x43414E414449414E2053594C4C4142494353204E574F20),
  (0x18CB, 0x43414E414449414E2053594C4C4142494353204F4A4942574159204E574F20),
  (0x18CC, 0x43414E414449414E2053594C4C4142494353204E574F4F20),
  (0x18CD, 0x43414E414449414E2053594C4C4142494353204F4A4942574159204E574F4F20),
  (0x18CE, 0x43414E414449414E2053594C4C4142494353205257454520),
  (0x18CF, 0x43414E414449414E2053594C4C41424943532052574920),
  (0x18D0, 0x43414E414449414E2053594C4C4142494353205257494920),
  (0x18D1, 0x43414E414449414E2053594C4C41424943532052574F20),
  (0x18D2, 0x43414E414449414E2053594C4C41424943532052574F4F20),
  (0x18D3, 0x43414E414449414E2053594C4C41424943532052574120),
  (0x18D4, 0x43414E414449414E2053594C4C4142494353204F4A4942574159205020),
  (0x18D5, 0x43414E414449414E2053594C4C4142494353204F4A4942574159205420),
  (0x18D6, 0x43414E414449414E2053594C4C4142494353204F4A4942574159204B20),
  (0x18D7, 0x43414E414449414E2053594C4C4142494353204F4A4942574159204320),
  (0x18D8, 0x43414E414449414E2053594C4C4142494353204F4A4942574159204D20),
  (0x18D9, 0x43414E414449414E2053594C4C4142494353204F4A4942574159204E20),
  (0x18DA, 0x43414E414449414E2053594C4C4142494353204F4A4942574159205320),
  (0x18DB, 0x43414E414449414E2053594C4C4142494353204F4A494257415920534820),
  (0x18DC, 0x43414E414449414E2053594C4C4142494353204541535445524E205720),
  (0x18DD, 0x43414E414449414E2053594C4C4142494353205745535445524E205720),
  (0x18DE, 0x43414E414449414E2053594C4C41424943532046494E414C20534D414C4C2052494E4720),
  (0x18DF, 0x43414E414449414E2053594C4C41424943532046494E414C2052414953454420444F5420),
  (0x18E0, 0x43414E414449414E2053594C4C414249435320522D435245452052574520),
  (0x18E1, 0x43414E414449414E2053594C4C414249435320574553542D43524545204C4F4F20),
  (0x18E2, 0x43414E414449414E2053594C4C414249435320574553542D43524545204C414120),
  (0x18E3, 0x43414E414449414E2053594C4C4142494353205448574520),
  (0x18E4, 0x43414E414449414E2053594C4C4142494353205448574120),
  (0x18E5, 0x43414E414449414E2053594C4C414249435320545448574520),
  (0x18E6, 0x43414E414449414E2053594C4C4142494353205454484F4F20),
  (0x18E7, 0x43414E414449414E2053594C4C414249435320545448414120),
  (0x18E8, 0x43414E414449414E2053594C4C414249435320544C48574520),
  (0x18E9, 0x43414E414449414E2053594C4C414249435320544C484F4F20),
  (0x18EA, 0x43414E414449414E2053594C4C414249435320534159495349205348574520),
  (0x18EB, 0x43414E414449414E2053594C4C4142494353205341594953492053484F4F20),
  (0x18EC, 0x43414E414449414E2053594C4C41424943532053415949534920484F4F20),
  (0x18ED, 0x43414E414449414E2053594C4C414249435320434152524945522047575520),
  (0x18EE, 0x43414E414449414E2053594C4C414249435320434152524945522044454E452047454520),
  (0x18EF, 0x43414E414449414E2053594C4C414249435320434152524945522047414120),
  (0x18F0, 0x43414E414449414E2053594C4C414249435320434152524945522047574120),
  (0x18F1, 0x43414E414449414E2053594C4C414249435320534159495349204A555520),
  (0x18F2, 0x43414E414449414E2053594C4C41424943532043415252494552204A574120),
  (0x18F3, 0x43414E414449414E2053594C4C4142494353204245415645522044454E45204C20),
  (0x18F4, 0x43414E414449414E2053594C4C4142494353204245415645522044454E45205220),
  (0x18F5, 0x43414E414449414E2053594C4C414249435320434152524945522044454E54414C205320),
  (0x1900, 0x4C494D425520564F57454C2D43415252494552204C455454455220),
  (0x1901, 0x4C494D4255204C4554544552204B4120),
  (0x1902, 0x4C494D4255204C4554544552204B484120),
  (0x1903, 0x4C494D4255204C455454455220474120),
  (0x1904, 0x4C494D4255204C45545445522047484120)]
def names_87 : List (Nat × Nat) := [
  (0x1905, 0x4C494D4255204C4554544552204E474120),
  (0x1906, 0x4C494D4255204C455454455220434120),
  (0x1907, 0x4C494D4255204C45545445522043484120),
  (0x1908, 0x4C494D4255204C4554544552204A4120),
  (0x1909, 0x4C494D4255204C4554544552204A484120),
  (0x190A, 0x4C494D4255204C45545445522059414E20),
  (0x190B, 0x4C494D4255204C455454455220544120),
  (0x190C, 0x4C494D4255204C45545445522054484120),
  (0x190D, 0x4C494D4255204C455454455220444120),
  (0x190E, 0x4C494D4255204C45545445522044484120),
  (0x190F, 0x4C494D4255204C4554544552204E4120),
  (0x1910, 0x4C494D4255204C455454455220504120),
  (0x1911, 0x4C494D4255204C45545445522050484120),
  (0x1912, 0x4C494D4255204C455454455220424120),
  (0x1913, 0x4C494D4255204C45545445522042484120),
  (0x1914, 0x4C494D4255204C4554544552204D4120),
  (0x1915, 0x4C494D4255204C455454455220594120),
  (0x1916, 0x4C494D4255204C455454455220524120),
  (0x1917, 0x4C494D4255204C4554544552204C4120),
  (0x1918, 0x4C494D4255204C455454455220574120),
  (0x1919, 0x4C494D4255204C45545445522053484120),
  (0x191A, 0x4C494D4255204C45545445522053534120),
  (0x191B, 0x4C494D4255204C455454455220534120),
  (0x191C, 0x4C494D4255204C455454455220484120),
  (0x191D, 0x4C494D4255204C4554544552204759414E20),
  (0x191E, 0x4C494D4255204C45545445522054524120),
  (0x1920, 0x4C494D425520564F57454C205349474E204120),
  (0x1921, 0x4C494D425520564F57454C205349474E204920),
  (0x1922, 0x4C494D425520564F57454C205349474E205520),
  (0x1923, 0x4C494D425520564F57454C205349474E20454520),
  (0x1924, 0x4C494D425520564F57454C205349474E20414920),
  (0x1925, 0x4C494D425520564F57454C205349474E204F4F20),
  (0x1926, 0x4C494D425520564F57454C205349474E20415520),
  (0x1927, 0x4C494D425520564F57454C205349474E204520),
  (0x1928, 0x4C494D425520564F57454C205349474E204F20),
  (0x1929, 0x4C494D4255205355424A4F494E4544204C455454455220594120),
  (0x192A, 0x4C494D4255205355424A4F494E4544204C455454455220524120),
  (0x192B, 0x4C494D4255205355424A4F494E4544204C455454455220574120),
  (0x1930, 0x4C494D425520534D414C4C204C4554544552204B4120),
  (0x1931, 0x4C494D425520534D414C4C204C4554544552204E474120),
  (0x1932, 0x4C494D425520534D414C4C204C455454455220414E55535641524120),
  (0x1933, 0x4C494D425520534D414C4C204C455454455220544120),
  (0x1934, 0x4C494D425520534D414C4C204C4554544552204E4120),
  (0x1935, 0x4C494D425520534D414C4C204C455454455220504120),
  (0x1936, 0x4C494D425520534D414C4C204C4554544552204D4120),
  (0x1937, 0x4C494D425520534D414C4C204C455454455220524120),
  (0x1938, 0x4C494D425520534D414C4C204C4554544552204C4120),
  (0x1939, 0x4C494D4255205349474E204D554B504852454E4720),
  (0x193A, 0x4C494D4255205349474E204B454D504852454E4720),
  (0x193B, 0x4C494D4255205349474E2053412D4920),
  (0x1940, 0x4C494D4255205349474E204C4F4F20),
  (0x1944, 0x4C494D4255204558434C414D4154494F4E204D41524B20),
  (0x1945, 0x4C494D4255205155455354494F4E204D41524B20),
  (0x1946, 0x4C494D4255204449474954205A45524F20),
  (0x1947, 0x4C494D4255204449474954204F4E4520),
  (0x1948, 0x4C494D42552044494749542054574F20),
  (0x1949, 0x4C494D425520444947495420544852454520),
  (0x194A, 0x4C494D425520444947495420464F555220),
  (0x194B, 0x4C494D4255204449474954204649564520),
  (0x194C, 0x4C494D42552044494749542053495820),
  (0x194D, 0x4C494D425520444947495420534556454E20),
  (0x194E, 0x4C494D425520444947495420454947485420),
  (0x194F, 0x4C494D4255204449474954204E494E4520),
  (0x1950, 0x544149204C45204C4554544552204B4120)]
def names_88 : List (Nat × Nat) := [
  (0x1951, 0x544149204C45204C455454455220584120),
  (0x1952, 0x544149204C45204C4554544552204E474120),
  (0x1953, 0x544149204C45204C45545445522054534120),
  (0x1954, 0x544149204C45204C455454455220534120),
  (0x1955, 0x544149204C45204C455454455220594120),
  (0x1956, 0x544149204C45204C455454455220544120),
  (0x1957, 0x544149204C45204C45545445522054484120),
  (0x1958, 0x544149204C45204C4554544552204C4120),
  (0x1959, 0x544149204C45204C455454455220504120),
  (0x195A, 0x544149204C45204C45545445522050484120),
  (0x195B, 0x544149204C45204C4554544552204D4120),
  (0x195C, 0x544149204C45204C455454455220464120),
  (0x195D, 0x544149204C45204C455454455220564120),
  (0x195E, 0x544149204C45204C455454455220484120),
  (0x195F, 0x544149204C45204C455454455220514120),
  (0x1960, 0x544149204C45204C4554544552204B484120),
  (0x1961, 0x544149204C45204C4554544552205453484120),
  (0x1962, 0x544149204C45204C4554544552204E4120),
  (0x1963, 0x544149204C45204C4554544552204120),
  (0x1964, 0x544149204C45204C4554544552204920),
  (0x1965, 0x544149204C45204C455454455220454520),
  (0x1966, 0x544149204C45204C455454455220454820),
  (0x1967, 0x544149204C45204C4554544552205520),
  (0x1968, 0x544149204C45204C4554544552204F4F20),
  (0x1969, 0x544149204C45204C4554544552204F20),
  (0x196A, 0x544149204C45204C455454455220554520),
  (0x196B, 0x544149204C45204C4554544552204520),
  (0x196C, 0x544149204C45204C45545445522041554520),
  (0x196D, 0x544149204C45204C455454455220414920),
  (0x1970, 0x544149204C45204C455454455220544F4E452D3220),
  (0x1971, 0x544149204C45204C455454455220544F4E452D3320),
  (0x1972, 0x544149204C45204C455454455220544F4E452D3420),
  (0x1973, 0x544149204C45204C455454455220544F4E452D3520),
  (0x1974, 0x544149204C45204C455454455220544F4E452D3620),
  (0x1980, 0x4E455720544149204C5545204C4554544552204849474820514120),
  (0x1981, 0x4E455720544149204C5545204C4554544552204C4F5720514120),
  (0x1982, 0x4E455720544149204C5545204C45545445522048494748204B4120),
  (0x1983, 0x4E455720544149204C5545204C4554544552204849474820584120),
  (0x1984, 0x4E455720544149204C5545204C45545445522048494748204E474120),
  (0x1985, 0x4E455720544149204C5545204C4554544552204C4F57204B4120),
  (0x1986, 0x4E455720544149204C5545204C4554544552204C4F5720584120),
  (0x1987, 0x4E455720544149204C5545204C4554544552204C4F57204E474120),
  (0x1988, 0x4E455720544149204C5545204C455454455220484947482054534120),
  (0x1989, 0x4E455720544149204C5545204C4554544552204849474820534120),
  (0x198A, 0x4E455720544149204C5545204C4554544552204849474820594120),
  (0x198B, 0x4E455720544149204C5545204C4554544552204C4F572054534120),
  (0x198C, 0x4E455720544149204C5545204C4554544552204C4F5720534120),
  (0x198D, 0x4E455720544149204C5545204C4554544552204C4F5720594120),
  (0x198E, 0x4E455720544149204C5545204C4554544552204849474820544120),
  (0x198F, 0x4E455720544149204C5545204C455454455220484947482054484120),
  (0x1990, 0x4E455720544149204C5545204C45545445522048494748204E4120),
  (0x1991, 0x4E455720544149204C5545204C4554544552204C4F5720544120),
  (0x1992, 0x4E455720544149204C5545204C4554544552204C4F572054484120),
  (0x1993, 0x4E455720544149204C5545204C4554544552204C4F57204E4120),
  (0x1994, 0x4E455720544149204C5545204C4554544552204849474820504120),
  (0x1995, 0x4E455720544149204C5545204C455454455220484947482050484120),
  (0x1996, 0x4E455720544149204C5545204C45545445522048494748204D4120),
  (0x1997, 0x4E455720544149204C5545204C4554544552204C4F5720504120),
  (0x1998, 0x4E455720544149204C5545204C4554544552204C4F572050484120),
  (0x1999, 0x4E455720544149204C5545204C4554544552204C4F57204D4120),
  (0x199A, 0x4E455720544149204C5545204C4554544552204849474820464120),
  (0x199B, 0x4E455720544149204C5545204C4554544552204849474820564120),
  (0x199C, 0x4E455720544149204C5545204C45545445522048494748204C4120),
  (0x199D, 0x4E455720544149204C5545204C4554544552204C4F5720464120)]
def names_89 : List (Nat × Nat) := [
  (0x199E, 0x4E455720544149204C5545204C4554544552204C4F5720564120),
  (0x199F, 0x4E455720544149204C5545204C4554544552204C4F57204C4120),
  (0x19A0, 0x4E455720544149204C5545204C4554544552204849474820484120),
  (0x19A1, 0x4E455720544149204C5545204C4554544552204849474820444120),
  (0x19A2, 0x4E455720544149204C5545204C4554544552204849474820424120),
  (0x19A3, 0x4E455720544149204C5545204C4554544552204C4F5720484120),
  (0x19A4, 0x4E455720544149204C5545204C4554544552204C4F5720444120),
  (0x19A5, 0x4E455720544149204C5545204C4554544552204C4F5720424120),
  (0x19A6, 0x4E455720544149204C5545204C45545445522048494748204B564120),
  (0x19A7, 0x4E455720544149204C5545204C455454455220484947482058564120),
  (0x19A8, 0x4E455720544149204C5545204C4554544552204C4F57204B564120),
  (0x19A9, 0x4E455720544149204C5545204C4554544552204C4F572058564120),
  (0x19AA, 0x4E455720544149204C5545204C455454455220484947482053554120),
  (0x19AB, 0x4E455720544149204C5545204C4554544552204C4F572053554120),
  (0x19B0, 0x4E455720544149204C554520564F57454C205349474E20564F57454C2053484F5254454E455220),
  (0x19B1, 0x4E455720544149204C554520564F57454C205349474E20414120),
  (0x19B2, 0x4E455720544149204C554520564F57454C205349474E20494920),
  (0x19B3, 0x4E455720544149204C554520564F57454C205349474E205520),
  (0x19B4, 0x4E455720544149204C554520564F57454C205349474E20555520),
  (0x19B5, 0x4E455720544149204C554520564F57454C205349474E204520),
  (0x19B6, 0x4E455720544149204C554520564F57454C205349474E20414520),
  (0x19B7, 0x4E455720544149204C554520564F57454C205349474E204F20),
  (0x19B8, 0x4E455720544149204C554520564F57454C205349474E204F4120),
  (0x19B9, 0x4E455720544149204C554520564F57454C205349474E20554520),
  (0x19BA, 0x4E455720544149204C554520564F57454C205349474E20415920),
  (0x19BB, 0x4E455720544149204C554520564F57454C205349474E2041415920),
  (0x19BC, 0x4E455720544149204C554520564F57454C205349474E20555920),
  (0x19BD, 0x4E455720544149204C554520564F57454C205349474E204F5920),
  (0x19BE, 0x4E455720544149204C554520564F57454C205349474E204F415920),
  (0x19BF, 0x4E455720544149204C554520564F57454C205349474E2055455920),
  (0x19C0, 0x4E455720544149204C554520564F57454C205349474E20495920),
  (0x19C1, 0x4E455720544149204C5545204C45545445522046494E414C205620),
  (0x19C2, 0x4E455720544149204C5545204C45545445522046494E414C204E4720),
  (0x19C3, 0x4E455720544149204C5545204C45545445522046494E414C204E20),
  (0x19C4, 0x4E455720544149204C5545204C45545445522046494E414C204D20),
  (0x19C5, 0x4E455720544149204C5545204C45545445522046494E414C204B20),
  (0x19C6, 0x4E455720544149204C5545204C45545445522046494E414C204420),
  (0x19C7, 0x4E455720544149204C5545204C45545445522046494E414C204220),
  (0x19C8, 0x4E455720544149204C554520544F4E45204D41524B2D3120),
  (0x19C9, 0x4E455720544149204C554520544F4E45204D41524B2D3220),
  (0x19D0, 0x4E455720544149204C5545204449474954205A45524F20),
  (0x19D1, 0x4E455720544149204C5545204449474954204F4E4520),
  (0x19D2, 0x4E455720544149204C55452044494749542054574F20),
  (0x19D3, 0x4E455720544149204C554520444947495420544852454520),
  (0x19D4, 0x4E455720544149204C554520444947495420464F555220),
  (0x19D5, 0x4E455720544149204C5545204449474954204649564520),
  (0x19D6, 0x4E455720544149204C55452044494749542053495820),
  (0x19D7, 0x4E455720544149204C554520444947495420534556454E20),
  (0x19D8, 0x4E455720544149204C554520444947495420454947485420),
  (0x19D9, 0x4E455720544149204C5545204449474954204E494E4520),
  (0x19DA, 0x4E455720544149204C5545205448414D204449474954204F4E4520),
  (0x19DE, 0x4E455720544149204C5545205349474E204C414520),
  (0x19DF, 0x4E455720544149204C5545205349474E204C41455620),
  (0x19E0, 0x4B484D45522053594D424F4C2050415448414D4153415420),
  (0x19E1, 0x4B484D45522053594D424F4C204D554F59204B4F455420),
  (0x19E2, 0x4B484D45522053594D424F4C20504949204B4F455420),
  (0x19E3, 0x4B484D45522053594D424F4C20424549204B4F455420),
  (0x19E4, 0x4B484D45522053594D424F4C2042554F4E204B4F455420),
  (0x19E5, 0x4B484D45522053594D424F4C205052414D204B4F455420),
  (0x19E6, 0x4B484D45522053594D424F4C205052414D2D4D554F59204B4F455420),
  (0x19E7, 0x4B484D45522053594D424F4C205052414D2D504949204B4F455420),
  (0x19E8, 0x4B484D45522053594D424F4C205052414D2D424549204B4F455420),
  (0x19E9, 0x4B484D45522053594D424F4C205052414D2D42554F4E204B4F455420),
  (0x19EA, 0x4B484D45522053594D424F4C20444150204B4F455420)]
def names_90 : List (Nat × Nat) := [
  (0x19EB, 0x4B484D45522053594D424F4C204441502D4D554F59204B4F455420),
  (0x19EC, 0x4B484D45522053594D424F4C204441502D504949204B4F455420),
  (0x19ED, 0x4B484D45522053594D424F4C204441502D424549204B4F455420),
  (0x19EE, 0x4B484D45522053594D424F4C204441502D42554F4E204B4F455420),
  (0x19EF, 0x4B484D45522053594D424F4C204441502D5052414D204B4F455420),
  (0x19F0, 0x4B484D45522053594D424F4C2054555445594153415420),
  (0x19F1, 0x4B484D45522053594D424F4C204D554F5920524F4320),
  (0x19F2, 0x4B484D45522053594D424F4C2050494920524F4320),
  (0x19F3, 0x4B484D45522053594D424F4C2042454920524F4320),
  (0x19F4, 0x4B484D45522053594D424F4C2042554F4E20524F4320),
  (0x19F5, 0x4B484D45522053594D424F4C205052414D20524F4320),
  (0x19F6, 0x4B484D45522053594D424F4C205052414D2D4D554F5920524F4320),
  (0x19F7, 0x4B484D45522053594D424F4C205052414D2D50494920524F4320),
  (0x19F8, 0x4B484D45522053594D424F4C205052414D2D42454920524F4320),
  (0x19F9, 0x4B484D45522053594D424F4C205052414D2D42554F4E20524F4320),
  (0x19FA, 0x4B484D45522053594D424F4C2044415020524F4320),
  (0x19FB, 0x4B484D45522053594D424F4C204441502D4D554F5920524F4320),
  (0x19FC, 0x4B484D45522053594D424F4C204441502D50494920524F4320),
  (0x19FD, 0x4B484D45522053594D424F4C204441502D42454920524F4320),
  (0x19FE, 0x4B484D45522053594D424F4C204441502D42554F4E20524F4320),
  (0x19FF, 0x4B484D45522053594D424F4C204441502D5052414D20524F4320),
  (0x1A00, 0x425547494E455345204C4554544552204B4120),
  (0x1A01, 0x425547494E455345204C455454455220474120),
  (0x1A02, 0x425547494E455345204C4554544552204E474120),
  (0x1A03, 0x425547494E455345204C4554544552204E474B4120),
  (0x1A04, 0x425547494E455345204C455454455220504120),
  (0x1A05, 0x425547494E455345204C455454455220424120),
  (0x1A06, 0x425547494E455345204C4554544552204D4120),
  (0x1A07, 0x425547494E455345204C4554544552204D504120),
  (0x1A08, 0x425547494E455345204C455454455220544120),
  (0x1A09, 0x425547494E455345204C455454455220444120),
  (0x1A0A, 0x425547494E455345204C4554544552204E4120),
  (0x1A0B, 0x425547494E455345204C4554544552204E524120),
  (0x1A0C, 0x425547494E455345204C455454455220434120),
  (0x1A0D, 0x425547494E455345204C4554544552204A4120),
  (0x1A0E, 0x425547494E455345204C4554544552204E594120),
  (0x1A0F, 0x425547494E455345204C4554544552204E59434120),
  (0x1A10, 0x425547494E455345204C455454455220594120),
  (0x1A11, 0x425547494E455345204C455454455220524120),
  (0x1A12, 0x425547494E455345204C4554544552204C4120),
  (0x1A13, 0x425547494E455345204C455454455220564120),
  (0x1A14, 0x425547494E455345204C455454455220534120),
  (0x1A15, 0x425547494E455345204C4554544552204120),
  (0x1A16, 0x425547494E455345204C455454455220484120),
  (0x1A17, 0x425547494E45534520564F57454C205349474E204920),
  (0x1A18, 0x425547494E45534520564F57454C205349474E205520),
  (0x1A19, 0x425547494E45534520564F57454C205349474E204520),
  (0x1A1A, 0x425547494E45534520564F57454C205349474E204F20),
  (0x1A1B, 0x425547494E45534520564F57454C205349474E20414520),
  (0x1A1E, 0x425547494E4553452050414C4C41574120),
  (0x1A1F, 0x425547494E45534520454E44204F462053454354494F4E20),
  (0x1A20, 0x544149205448414D204C45545445522048494748204B4120),
  (0x1A21, 0x544149205448414D204C45545445522048494748204B484120),
  (0x1A22, 0x544149205448414D204C45545445522048494748204B584120),
  (0x1A23, 0x544149205448414D204C4554544552204C4F57204B4120),
  (0x1A24, 0x544149205448414D204C4554544552204C4F57204B584120),
  (0x1A25, 0x544149205448414D204C4554544552204C4F57204B484120),
  (0x1A26, 0x544149205448414D204C4554544552204E474120),
  (0x1A27, 0x544149205448414D204C4554544552204849474820434120),
  (0x1A28, 0x544149205448414D204C455454455220484947482043484120),
  (0x1A29, 0x544149205448414D204C4554544552204C4F5720434120),
  (0x1A2A, 0x544149205448414D204C4554544552204C4F5720534120),
  (0x1A2B, 0x544149205448414D204C4554544552204C4F572043484120),
  (0x1A2C, 0x544149205448414D204C4554544552204E594120)]
def names_91 : List (Nat × Nat) := [
  (0x1A2D, 0x544149205448414D204C4554544552205241544120),
  (0x1A2E, 0x544149205448414D204C4554544552204849474820524154484120),
  (0x1A2F, 0x544149205448414D204C455454455220444120),
  (0x1A30, 0x544149205448414D204C4554544552204C4F5720524154484120),
  (0x1A31, 0x544149205448414D204C45545445522052414E4120),
  (0x1A32, 0x544149205448414D204C4554544552204849474820544120),
  (0x1A33, 0x544149205448414D204C455454455220484947482054484120),
  (0x1A34, 0x544149205448414D204C4554544552204C4F5720544120),
  (0x1A35, 0x544149205448414D204C4554544552204C4F572054484120),
  (0x1A36, 0x544149205448414D204C4554544552204E4120),
  (0x1A37, 0x544149205448414D204C455454455220424120),
  (0x1A38, 0x544149205448414D204C4554544552204849474820504120),
  (0x1A39, 0x544149205448414D204C455454455220484947482050484120),
  (0x1A3A, 0x544149205448414D204C4554544552204849474820464120),
  (0x1A3B, 0x544149205448414D204C4554544552204C4F5720504120),
  (0x1A3C, 0x544149205448414D204C4554544552204C4F5720464120),
  (0x1A3D, 0x544149205448414D204C4554544552204C4F572050484120),
  (0x1A3E, 0x544149205448414D204C4554544552204D4120),
  (0x1A3F, 0x544149205448414D204C4554544552204C4F5720594120),
  (0x1A40, 0x544149205448414D204C4554544552204849474820594120),
  (0x1A41, 0x544149205448414D204C455454455220524120),
  (0x1A42, 0x544149205448414D204C45545445522052554520),
  (0x1A43, 0x544149205448414D204C4554544552204C4120),
  (0x1A44, 0x544149205448414D204C4554544552204C554520),
  (0x1A45, 0x544149205448414D204C455454455220574120),
  (0x1A46, 0x544149205448414D204C455454455220484947482053484120),
  (0x1A47, 0x544149205448414D204C455454455220484947482053534120),
  (0x1A48, 0x544149205448414D204C4554544552204849474820534120),
  (0x1A49, 0x544149205448414D204C4554544552204849474820484120),
  (0x1A4A, 0x544149205448414D204C4554544552204C4C4120),
  (0x1A4B, 0x544149205448414D204C4554544552204120),
  (0x1A4C, 0x544149205448414D204C4554544552204C4F5720484120),
  (0x1A4D, 0x544149205448414D204C4554544552204920),
  (0x1A4E, 0x544149205448414D204C455454455220494920),
  (0x1A4F, 0x544149205448414D204C4554544552205520),
  (0x1A50, 0x544149205448414D204C455454455220555520),
  (0x1A51, 0x544149205448414D204C455454455220454520),
  (0x1A52, 0x544149205448414D204C4554544552204F4F20),
  (0x1A53, 0x544149205448414D204C4554544552204C414520),
  (0x1A54, 0x544149205448414D204C455454455220475245415420534120),
  (0x1A55, 0x544149205448414D20434F4E534F4E414E54205349474E204D454449414C20524120),
  (0x1A56, 0x544149205448414D20434F4E534F4E414E54205349474E204D454449414C204C4120),
  (0x1A57, 0x544149205448414D20434F4E534F4E414E54205349474E204C412054414E47204C414920),
  (0x1A58, 0x544149205448414D205349474E204D4149204B414E47204C414920),
  (0x1A59, 0x544149205448414D20434F4E534F4E414E54205349474E2046494E414C204E474120),
  (0x1A5A, 0x544149205448414D20434F4E534F4E414E54205349474E204C4F5720504120),
  (0x1A5B, 0x544149205448414D20434F4E534F4E414E54205349474E2048494748205241544841204F52204C4F5720504120),
  (0x1A5C, 0x544149205448414D20434F4E534F4E414E54205349474E204D4120),
  (0x1A5D, 0x544149205448414D20434F4E534F4E414E54205349474E20424120),
  (0x1A5E, 0x544149205448414D20434F4E534F4E414E54205349474E20534120),
  (0x1A60, 0x544149205448414D205349474E2053414B4F5420),
  (0x1A61, 0x544149205448414D20564F57454C205349474E204120),
  (0x1A62, 0x544149205448414D20564F57454C205349474E204D41492053415420),
  (0x1A63, 0x544149205448414D20564F57454C205349474E20414120),
  (0x1A64, 0x544149205448414D20564F57454C205349474E2054414C4C20414120),
  (0x1A65, 0x544149205448414D20564F57454C205349474E204920),
  (0x1A66, 0x544149205448414D20564F57454C205349474E20494920),
  (0x1A67, 0x544149205448414D20564F57454C205349474E20554520),
  (0x1A68, 0x544149205448414D20564F57454C205349474E2055554520),
  (0x1A69, 0x544149205448414D20564F57454C205349474E205520),
  (0x1A6A, 0x544149205448414D20564F57454C205349474E20555520),
  (0x1A6B, 0x544149205448414D20564F57454C205349474E204F20),
  (0x1A6C, 0x544149205448414D20564F57454C205349474E204F412042454C4F5720),
  (0x1A6D, 0x544149205448414D20564F57454C205349474E204F5920)]
def names_92 : List (Nat × Nat) := [
  (0x1A6E, 0x544149205448414D20564F57454C205349474E204520),
  (0x1A6F, 0x544149205448414D20564F57454C205349474E20414520),
  (0x1A70, 0x544149205448414D20564F57454C205349474E204F4F20),
  (0x1A71, 0x544149205448414D20564F57454C205349474E20414920),
  (0x1A72, 0x544149205448414D20564F57454C205349474E205448414D20414920),
  (0x1A73, 0x544149205448414D20564F57454C205349474E204F412041424F564520),
  (0x1A74, 0x544149205448414D205349474E204D4149204B414E4720),
  (0x1A75, 0x544149205448414D205349474E20544F4E452D3120),
  (0x1A76, 0x544149205448414D205349474E20544F4E452D3220),
  (0x1A77, 0x544149205448414D205349474E204B4855454E20544F4E452D3320),
  (0x1A78, 0x544149205448414D205349474E204B4855454E20544F4E452D3420),
  (0x1A79, 0x544149205448414D205349474E204B4855454E20544F4E452D3520),
  (0x1A7A, 0x544149205448414D205349474E205241204841414D20),
  (0x1A7B, 0x544149205448414D205349474E204D41492053414D20),
  (0x1A7C, 0x544149205448414D205349474E204B4855454E2D4C5545204B4152414E20),
  (0x1A7F, 0x544149205448414D20434F4D42494E494E472043525950544F4752414D4D494320444F5420),
  (0x1A80, 0x544149205448414D20484F5241204449474954205A45524F20),
  (0x1A81, 0x544149205448414D20484F5241204449474954204F4E4520),
  (0x1A82, 0x544149205448414D20484F52412044494749542054574F20),
  (0x1A83, 0x544149205448414D20484F524120444947495420544852454520),
  (0x1A84, 0x544149205448414D20484F524120444947495420464F555220),
  (0x1A85, 0x544149205448414D20484F5241204449474954204649564520),
  (0x1A86, 0x544149205448414D20484F52412044494749542053495820),
  (0x1A87, 0x544149205448414D20484F524120444947495420534556454E20),
  (0x1A88, 0x544149205448414D20484F524120444947495420454947485420),
  (0x1A89, 0x544149205448414D20484F5241204449474954204E494E4520),
  (0x1A90, 0x544149205448414D205448414D204449474954205A45524F20),
  (0x1A91, 0x544149205448414D205448414D204449474954204F4E4520),
  (0x1A92, 0x544149205448414D205448414D2044494749542054574F20),
  (0x1A93, 0x544149205448414D205448414D20444947495420544852454520),
  (0x1A94, 0x544149205448414D205448414D20444947495420464F555220),
  (0x1A95, 0x544149205448414D205448414D204449474954204649564520),
  (0x1A96, 0x544149205448414D205448414D2044494749542053495820),
  (0x1A97, 0x544149205448414D205448414D20444947495420534556454E20),
  (0x1A98, 0x544149205448414D205448414D20444947495420454947485420),
  (0x1A99, 0x544149205448414D205448414D204449474954204E494E4520),
  (0x1AA0, 0x544149205448414D205349474E205749414E4720),
  (0x1AA1, 0x544149205448414D205349474E205749414E475741414B20),
  (0x1AA2, 0x544149205448414D205349474E20534157414E20),
  (0x1AA3, 0x544149205448414D205349474E204B454F5720),
  (0x1AA4, 0x544149205448414D205349474E20484F5920),
  (0x1AA5, 0x544149205448414D205349474E20444F4B4D414920),
  (0x1AA6, 0x544149205448414D205349474E20524556455253454420524F54415445442052414E4120),
  (0x1AA7, 0x544149205448414D205349474E204D41492059414D4F4B20),
  (0x1AA8, 0x544149205448414D205349474E204B41414E20),
  (0x1AA9, 0x544149205448414D205349474E204B41414E4B555520),
  (0x1AAA, 0x544149205448414D205349474E205341544B41414E20),
  (0x1AAB, 0x544149205448414D205349474E205341544B41414E4B555520),
  (0x1AAC, 0x544149205448414D205349474E2048414E4720),
  (0x1AAD, 0x544149205448414D205349474E204341414E4720),
  (0x1AB0, 0x434F4D42494E494E4720444F55424C45442043495243554D464C455820414343454E5420),
  (0x1AB1, 0x434F4D42494E494E47204449414552455349532D52494E4720),
  (0x1AB2, 0x434F4D42494E494E4720494E46494E49545920),
  (0x1AB3, 0x434F4D42494E494E4720444F574E5741524453204152524F5720),
  (0x1AB4, 0x434F4D42494E494E4720545249504C4520444F5420),
  (0x1AB5, 0x434F4D42494E494E4720582D582042454C4F5720),
  (0x1AB6, 0x434F4D42494E494E4720574947474C59204C494E452042454C4F5720),
  (0x1AB7, 0x434F4D42494E494E47204F50454E204D41524B2042454C4F5720),
  (0x1AB8, 0x434F4D42494E494E4720444F55424C45204F50454E204D41524B2042454C4F5720),
  (0x1AB9, 0x434F4D42494E494E47204C494748542043454E5452414C495A4154494F4E205354524F4B452042454C4F5720),
  (0x1ABA, 0x434F4D42494E494E47205354524F4E472043454E5452414C495A4154494F4E205354524F4B452042454C4F5720),
  (0x1ABB, 0x434F4D42494E494E4720504152454E5448455345532041424F564520),
  (0x1ABC, 0x434F4D42494E494E4720444F55424C4520504152454E5448455345532041424F564520),
  (0x1ABD, 0x434F4D42494E494E4720504152454E5448455345532042454C4F5720)]
def names_93 : List (Nat × Nat) := [
  (0x1ABE, 0x434F4D42494E494E4720504152454E544845534553204F5645524C415920),
  (0x1B00, 0x42414C494E455345205349474E20554C5520524943454D20),
  (0x1B01, 0x42414C494E455345205349474E20554C552043414E44524120),
  (0x1B02, 0x42414C494E455345205349474E20434543454B20),
  (0x1B03, 0x42414C494E455345205349474E20535552414E4720),
  (0x1B04, 0x42414C494E455345205349474E20424953414820),
  (0x1B05, 0x42414C494E455345204C455454455220414B41524120),
  (0x1B06, 0x42414C494E455345204C455454455220414B41524120544544554E4720),
  (0x1B07, 0x42414C494E455345204C455454455220494B41524120),
  (0x1B08, 0x42414C494E455345204C455454455220494B41524120544544554E4720),
  (0x1B09, 0x42414C494E455345204C455454455220554B41524120),
  (0x1B0A, 0x42414C494E455345204C455454455220554B41524120544544554E4720),
  (0x1B0B, 0x42414C494E455345204C4554544552205241205245504120),
  (0x1B0C, 0x42414C494E455345204C4554544552205241205245504120544544554E4720),
  (0x1B0D, 0x42414C494E455345204C4554544552204C41204C454E474120),
  (0x1B0E, 0x42414C494E455345204C4554544552204C41204C454E474120544544554E4720),
  (0x1B0F, 0x42414C494E455345204C455454455220454B41524120),
  (0x1B10, 0x42414C494E455345204C45545445522041494B41524120),
  (0x1B11, 0x42414C494E455345204C4554544552204F4B41524120),
  (0x1B12, 0x42414C494E455345204C4554544552204F4B41524120544544554E4720),
  (0x1B13, 0x42414C494E455345204C4554544552204B4120),
  (0x1B14, 0x42414C494E455345204C4554544552204B41204D4148415052414E4120),
  (0x1B15, 0x42414C494E455345204C455454455220474120),
  (0x1B16, 0x42414C494E455345204C455454455220474120474F524120),
  (0x1B17, 0x42414C494E455345204C4554544552204E474120),
  (0x1B18, 0x42414C494E455345204C455454455220434120),
  (0x1B19, 0x42414C494E455345204C4554544552204341204C41434120),
  (0x1B1A, 0x42414C494E455345204C4554544552204A4120),
  (0x1B1B, 0x42414C494E455345204C4554544552204A41204A45524120),
  (0x1B1C, 0x42414C494E455345204C4554544552204E594120),
  (0x1B1D, 0x42414C494E455345204C4554544552205441204C4154494B20),
  (0x1B1E, 0x42414C494E455345204C4554544552205441204D55524441204D4148415052414E4120),
  (0x1B1F, 0x42414C494E455345204C4554544552204441204D5552444120414C50415052414E4120),
  (0x1B20, 0x42414C494E455345204C4554544552204441204D55524441204D4148415052414E4120),
  (0x1B21, 0x42414C494E455345204C4554544552204E412052414D42415420),
  (0x1B22, 0x42414C494E455345204C455454455220544120),
  (0x1B23, 0x42414C494E455345204C4554544552205441205441574120),
  (0x1B24, 0x42414C494E455345204C455454455220444120),
  (0x1B25, 0x42414C494E455345204C4554544552204441204D41445520),
  (0x1B26, 0x42414C494E455345204C4554544552204E4120),
  (0x1B27, 0x42414C494E455345204C455454455220504120),
  (0x1B28, 0x42414C494E455345204C4554544552205041204B4150414C20),
  (0x1B29, 0x42414C494E455345204C455454455220424120),
  (0x1B2A, 0x42414C494E455345204C4554544552204241204B454D42414E4720),
  (0x1B2B, 0x42414C494E455345204C4554544552204D4120),
  (0x1B2C, 0x42414C494E455345204C455454455220594120),
  (0x1B2D, 0x42414C494E455345204C455454455220524120),
  (0x1B2E, 0x42414C494E455345204C4554544552204C4120),
  (0x1B2F, 0x42414C494E455345204C455454455220574120),
  (0x1B30, 0x42414C494E455345204C4554544552205341205341474120),
  (0x1B31, 0x42414C494E455345204C4554544552205341205341504120),
  (0x1B32, 0x42414C494E455345204C455454455220534120),
  (0x1B33, 0x42414C494E455345204C455454455220484120),
  (0x1B34, 0x42414C494E455345205349474E20524552454B414E20),
  (0x1B35, 0x42414C494E45534520564F57454C205349474E20544544554E4720),
  (0x1B36, 0x42414C494E45534520564F57454C205349474E20554C5520),
  (0x1B37, 0x42414C494E45534520564F57454C205349474E20554C55205341524920),
  (0x1B38, 0x42414C494E45534520564F57454C205349474E2053554B5520),
  (0x1B39, 0x42414C494E45534520564F57454C205349474E2053554B5520494C555420),
  (0x1B3A, 0x42414C494E45534520564F57454C205349474E205241205245504120),
  (0x1B3B, 0x42414C494E45534520564F57454C205349474E205241205245504120544544554E4720),
  (0x1B3C, 0x42414C494E45534520564F57454C205349474E204C41204C454E474120),
  (0x1B3D, 0x42414C494E45534520564F57454C205349474E204C41204C454E474120544544554E4720),
  (0x1B3E, 0x42414C494E45534520564F57454C205349474E2054414C494E4720)]
def names_94 : List (Nat × Nat) := [
  (0x1B3F, 0x42414C494E45534520564F57454C205349474E2054414C494E47205245504120),
  (0x1B40, 0x42414C494E45534520564F57454C205349474E2054414C494E4720544544554E4720),
  (0x1B41, 0x42414C494E45534520564F57454C205349474E2054414C494E47205245504120544544554E4720),
  (0x1B42, 0x42414C494E45534520564F57454C205349474E20504550455420),
  (0x1B43, 0x42414C494E45534520564F57454C205349474E20504550455420544544554E4720),
  (0x1B44, 0x42414C494E4553452041444547204144454720),
  (0x1B45, 0x42414C494E455345204C4554544552204B414620534153414B20),
  (0x1B46, 0x42414C494E455345204C4554544552204B484F5420534153414B20),
  (0x1B47, 0x42414C494E455345204C455454455220545A495220534153414B20),
  (0x1B48, 0x42414C494E455345204C455454455220454620534153414B20),
  (0x1B49, 0x42414C494E455345204C455454455220564520534153414B20),
  (0x1B4A, 0x42414C494E455345204C4554544552205A414C20534153414B20),
  (0x1B4B, 0x42414C494E455345204C45545445522041535955524120534153414B20),
  (0x1B50, 0x42414C494E455345204449474954205A45524F20),
  (0x1B51, 0x42414C494E455345204449474954204F4E4520),
  (0x1B52, 0x42414C494E4553452044494749542054574F20),
  (0x1B53, 0x42414C494E45534520444947495420544852454520),
  (0x1B54, 0x42414C494E45534520444947495420464F555220),
  (0x1B55, 0x42414C494E455345204449474954204649564520),
  (0x1B56, 0x42414C494E4553452044494749542053495820),
  (0x1B57, 0x42414C494E45534520444947495420534556454E20),
  (0x1B58, 0x42414C494E45534520444947495420454947485420),
  (0x1B59, 0x42414C494E455345204449474954204E494E4520),
  (0x1B5A, 0x42414C494E4553452050414E544920),
  (0x1B5B, 0x42414C494E4553452050414D41444120),
  (0x1B5C, 0x42414C494E4553452057494E445520),
  (0x1B5D, 0x42414C494E45534520434152494B2050414D554E474B414820),
  (0x1B5E, 0x42414C494E45534520434152494B2053494B4920),
  (0x1B5F, 0x42414C494E45534520434152494B205041524552454E20),
  (0x1B60, 0x42414C494E4553452050414D454E454E4720),
  (0x1B61, 0x42414C494E455345204D55534943414C2053594D424F4C20444F4E4720),
  (0x1B62, 0x42414C494E455345204D55534943414C2053594D424F4C2044454E4720),
  (0x1B63, 0x42414C494E455345204D55534943414C2053594D424F4C2044554E4720),
  (0x1B64, 0x42414C494E455345204D55534943414C2053594D424F4C2044414E4720),
  (0x1B65, 0x42414C494E455345204D55534943414C2053594D424F4C2044414E4720535552414E4720),
  (0x1B66, 0x42414C494E455345204D55534943414C2053594D424F4C2044494E4720),
  (0x1B67, 0x42414C494E455345204D55534943414C2053594D424F4C204441454E4720),
  (0x1B68, 0x42414C494E455345204D55534943414C2053594D424F4C204445554E4720),
  (0x1B69, 0x42414C494E455345204D55534943414C2053594D424F4C204441494E4720),
  (0x1B6A, 0x42414C494E455345204D55534943414C2053594D424F4C2044414E47204745444520),
  (0x1B6B, 0x42414C494E455345204D55534943414C2053594D424F4C20434F4D42494E494E4720544547454820),
  (0x1B6C, 0x42414C494E455345204D55534943414C2053594D424F4C20434F4D42494E494E4720454E44455020),
  (0x1B6D, 0x42414C494E455345204D55534943414C2053594D424F4C20434F4D42494E494E47204B454D50554C20),
  (0x1B6E, 0x42414C494E455345204D55534943414C2053594D424F4C20434F4D42494E494E47204B454D504C4920),
  (0x1B6F, 0x42414C494E455345204D55534943414C2053594D424F4C20434F4D42494E494E47204A45474F47414E20),
  (0x1B70, 0x42414C494E455345204D55534943414C2053594D424F4C20434F4D42494E494E47204B454D50554C2057495448204A45474F47414E20),
  (0x1B71, 0x42414C494E455345204D55534943414C2053594D424F4C20434F4D42494E494E47204B454D504C492057495448204A45474F47414E20),
  (0x1B72, 0x42414C494E455345204D55534943414C2053594D424F4C20434F4D42494E494E472042454E444520),
  (0x1B73, 0x42414C494E455345204D55534943414C2053594D424F4C20434F4D42494E494E4720474F4E4720),
  (0x1B74, 0x42414C494E455345204D55534943414C2053594D424F4C2052494748542D48414E44204F50454E2044554720),
  (0x1B75, 0x42414C494E455345204D55534943414C2053594D424F4C2052494748542D48414E44204F50454E2044414720),
  (0x1B76, 0x42414C494E455345204D55534943414C2053594D424F4C2052494748542D48414E4420434C4F5345442054554B20),
  (0x1B77, 0x42414C494E455345204D55534943414C2053594D424F4C2052494748542D48414E4420434C4F5345442054414B20),
  (0x1B78, 0x42414C494E455345204D55534943414C2053594D424F4C204C4546542D48414E44204F50454E2050414E4720),
  (0x1B79, 0x42414C494E455345204D55534943414C2053594D424F4C204C4546542D48414E44204F50454E2050554E4720),
  (0x1B7A, 0x42414C494E455345204D55534943414C2053594D424F4C204C4546542D48414E4420434C4F53454420504C414B20),
  (0x1B7B, 0x42414C494E455345204D55534943414C2053594D424F4C204C4546542D48414E4420434C4F53454420504C554B20),
  (0x1B7C, 0x42414C494E455345204D55534943414C2053594D424F4C204C4546542D48414E44204F50454E2050494E4720),
  (0x1B80, 0x53554E44414E455345205349474E2050414E594543454B20),
  (0x1B81, 0x53554E44414E455345205349474E2050414E474C4159415220),
  (0x1B82, 0x53554E44414E455345205349474E2050414E47574953414420),
  (0x1B83, 0x53554E44414E455345204C4554544552204120),
  (0x1B84, 0x53554E44414E455345204C4554544552204920),
  (0x1B85, 0x53554E44414E455345204C4554544552205520)]
def names_95 : List (Nat × Nat) := [
  (0x1B86, 0x53554E44414E455345204C455454455220414520),
  (0x1B87, 0x53554E44414E455345204C4554544552204F20),
  (0x1B88, 0x53554E44414E455345204C4554544552204520),
  (0x1B89, 0x53554E44414E455345204C455454455220455520),
  (0x1B8A, 0x53554E44414E455345204C4554544552204B4120),
  (0x1B8B, 0x53554E44414E455345204C455454455220514120),
  (0x1B8C, 0x53554E44414E455345204C455454455220474120),
  (0x1B8D, 0x53554E44414E455345204C4554544552204E474120),
  (0x1B8E, 0x53554E44414E455345204C455454455220434120),
  (0x1B8F, 0x53554E44414E455345204C4554544552204A4120),
  (0x1B90, 0x53554E44414E455345204C4554544552205A4120),
  (0x1B91, 0x53554E44414E455345204C4554544552204E594120),
  (0x1B92, 0x53554E44414E455345204C455454455220544120),
  (0x1B93, 0x53554E44414E455345204C455454455220444120),
  (0x1B94, 0x53554E44414E455345204C4554544552204E4120),
  (0x1B95, 0x53554E44414E455345204C455454455220504120),
  (0x1B96, 0x53554E44414E455345204C455454455220464120),
  (0x1B97, 0x53554E44414E455345204C455454455220564120),
  (0x1B98, 0x53554E44414E455345204C455454455220424120),
  (0x1B99, 0x53554E44414E455345204C4554544552204D4120),
  (0x1B9A, 0x53554E44414E455345204C455454455220594120),
  (0x1B9B, 0x53554E44414E455345204C455454455220524120),
  (0x1B9C, 0x53554E44414E455345204C4554544552204C4120),
  (0x1B9D, 0x53554E44414E455345204C455454455220574120),
  (0x1B9E, 0x53554E44414E455345204C455454455220534120),
  (0x1B9F, 0x53554E44414E455345204C455454455220584120),
  (0x1BA0, 0x53554E44414E455345204C455454455220484120),
  (0x1BA1, 0x53554E44414E45534520434F4E534F4E414E54205349474E2050414D494E474B414C20),
  (0x1BA2, 0x53554E44414E45534520434F4E534F4E414E54205349474E2050414E59414B524120),
  (0x1BA3, 0x53554E44414E45534520434F4E534F4E414E54205349474E2050414E59494B5520),
  (0x1BA4, 0x53554E44414E45534520564F57454C205349474E2050414E4748554C5520),
  (0x1BA5, 0x53554E44414E45534520564F57454C205349474E2050414E59554B5520),
  (0x1BA6, 0x53554E44414E45534520564F57454C205349474E2050414E41454C41454E4720),
  (0x1BA7, 0x53554E44414E45534520564F57454C205349474E2050414E4F4C4F4E4720),
  (0x1BA8, 0x53554E44414E45534520564F57454C205349474E2050414D4550455420),
  (0x1BA9, 0x53554E44414E45534520564F57454C205349474E2050414E45554C45554E4720),
  (0x1BAA, 0x53554E44414E455345205349474E2050414D4141454820),
  (0x1BAB, 0x53554E44414E455345205349474E20564952414D4120),
  (0x1BAC, 0x53554E44414E45534520434F4E534F4E414E54205349474E20504153414E47414E204D4120),
  (0x1BAD, 0x53554E44414E45534520434F4E534F4E414E54205349474E20504153414E47414E20574120),
  (0x1BAE, 0x53554E44414E455345204C4554544552204B484120),
  (0x1BAF, 0x53554E44414E455345204C45545445522053594120),
  (0x1BB0, 0x53554E44414E455345204449474954205A45524F20),
  (0x1BB1, 0x53554E44414E455345204449474954204F4E4520),
  (0x1BB2, 0x53554E44414E4553452044494749542054574F20),
  (0x1BB3, 0x53554E44414E45534520444947495420544852454520),
  (0x1BB4, 0x53554E44414E45534520444947495420464F555220),
  (0x1BB5, 0x53554E44414E455345204449474954204649564520),
  (0x1BB6, 0x53554E44414E4553452044494749542053495820),
  (0x1BB7, 0x53554E44414E45534520444947495420534556454E20),
  (0x1BB8, 0x53554E44414E45534520444947495420454947485420),
  (0x1BB9, 0x53554E44414E455345204449474954204E494E4520),
  (0x1BBA, 0x53554E44414E45534520415641475241484120),
  (0x1BBB, 0x53554E44414E455345204C45545445522052455520),
  (0x1BBC, 0x53554E44414E455345204C4554544552204C455520),
  (0x1BBD, 0x53554E44414E455345204C45545445522042484120),
  (0x1BBE, 0x53554E44414E455345204C45545445522046494E414C204B20),
  (0x1BBF, 0x53554E44414E455345204C45545445522046494E414C204D20),
  (0x1BC0, 0x424154414B204C4554544552204120),
  (0x1BC1, 0x424154414B204C45545445522053494D414C554E47554E204120),
  (0x1BC2, 0x424154414B204C455454455220484120),
  (0x1BC3, 0x424154414B204C45545445522053494D414C554E47554E20484120),
  (0x1BC4, 0x424154414B204C4554544552204D414E4441494C494E4720484120),
  (0x1BC5, 0x424154414B204C455454455220424120)]
def names_96 : List (Nat × Nat) := [
  (0x1BC6, 0x424154414B204C4554544552204B41524F20424120),
  (0x1BC7, 0x424154414B204C455454455220504120),
  (0x1BC8, 0x424154414B204C45545445522053494D414C554E47554E20504120),
  (0x1BC9, 0x424154414B204C4554544552204E4120),
  (0x1BCA, 0x424154414B204C4554544552204D414E4441494C494E47204E4120),
  (0x1BCB, 0x424154414B204C455454455220574120),
  (0x1BCC, 0x424154414B204C45545445522053494D414C554E47554E20574120),
  (0x1BCD, 0x424154414B204C45545445522050414B50414B20574120),
  (0x1BCE, 0x424154414B204C455454455220474120),
  (0x1BCF, 0x424154414B204C45545445522053494D414C554E47554E20474120),
  (0x1BD0, 0x424154414B204C4554544552204A4120),
  (0x1BD1, 0x424154414B204C455454455220444120),
  (0x1BD2, 0x424154414B204C455454455220524120),
  (0x1BD3, 0x424154414B204C45545445522053494D414C554E47554E20524120),
  (0x1BD4, 0x424154414B204C4554544552204D4120),
  (0x1BD5, 0x424154414B204C45545445522053494D414C554E47554E204D4120),
  (0x1BD6, 0x424154414B204C455454455220534F55544845524E20544120),
  (0x1BD7, 0x424154414B204C4554544552204E4F52544845524E20544120),
  (0x1BD8, 0x424154414B204C455454455220534120),
  (0x1BD9, 0x424154414B204C45545445522053494D414C554E47554E20534120),
  (0x1BDA, 0x424154414B204C4554544552204D414E4441494C494E4720534120),
  (0x1BDB, 0x424154414B204C455454455220594120),
  (0x1BDC, 0x424154414B204C45545445522053494D414C554E47554E20594120),
  (0x1BDD, 0x424154414B204C4554544552204E474120),
  (0x1BDE, 0x424154414B204C4554544552204C4120),
  (0x1BDF, 0x424154414B204C45545445522053494D414C554E47554E204C4120),
  (0x1BE0, 0x424154414B204C4554544552204E594120),
  (0x1BE1, 0x424154414B204C455454455220434120),
  (0x1BE2, 0x424154414B204C4554544552204E444120),
  (0x1BE3, 0x424154414B204C4554544552204D424120),
  (0x1BE4, 0x424154414B204C4554544552204920),
  (0x1BE5, 0x424154414B204C4554544552205520),
  (0x1BE6, 0x424154414B205349474E20544F4D504920),
  (0x1BE7, 0x424154414B20564F57454C205349474E204520),
  (0x1BE8, 0x424154414B20564F57454C205349474E2050414B50414B204520),
  (0x1BE9, 0x424154414B20564F57454C205349474E20454520),
  (0x1BEA, 0x424154414B20564F57454C205349474E204920),
  (0x1BEB, 0x424154414B20564F57454C205349474E204B41524F204920),
  (0x1BEC, 0x424154414B20564F57454C205349474E204F20),
  (0x1BED, 0x424154414B20564F57454C205349474E204B41524F204F20),
  (0x1BEE, 0x424154414B20564F57454C205349474E205520),
  (0x1BEF, 0x424154414B20564F57454C205349474E205520464F522053494D414C554E47554E20534120),
  (0x1BF0, 0x424154414B20434F4E534F4E414E54205349474E204E4720),
  (0x1BF1, 0x424154414B20434F4E534F4E414E54205349474E204820),
  (0x1BF2, 0x424154414B2050414E474F4C415420),
  (0x1BF3, 0x424154414B2050414E4F4E474F4E414E20),
  (0x1BFC, 0x424154414B2053594D424F4C2042494E4455204E41204D4554454B20),
  (0x1BFD, 0x424154414B2053594D424F4C2042494E44552050494E4152424F52415320),
  (0x1BFE, 0x424154414B2053594D424F4C2042494E4455204A5544554C20),
  (0x1BFF, 0x424154414B2053594D424F4C2042494E44552050414E474F4C415420),
  (0x1C00, 0x4C4550434841204C4554544552204B4120),
  (0x1C01, 0x4C4550434841204C4554544552204B4C4120),
  (0x1C02, 0x4C4550434841204C4554544552204B484120),
  (0x1C03, 0x4C4550434841204C455454455220474120),
  (0x1C04, 0x4C4550434841204C455454455220474C4120),
  (0x1C05, 0x4C4550434841204C4554544552204E474120),
  (0x1C06, 0x4C4550434841204C455454455220434120),
  (0x1C07, 0x4C4550434841204C45545445522043484120),
  (0x1C08, 0x4C4550434841204C4554544552204A4120),
  (0x1C09, 0x4C4550434841204C4554544552204E594120),
  (0x1C0A, 0x4C4550434841204C455454455220544120),
  (0x1C0B, 0x4C4550434841204C45545445522054484120),
  (0x1C0C, 0x4C4550434841204C455454455220444120),
  (0x1C0D, 0x4C4550434841204C4554544552204E4120)]
def names_97 : List (Nat × Nat) := [
  (0x1C0E, 0x4C4550434841204C455454455220504120),
  (0x1C0F, 0x4C4550434841204C455454455220504C4120),
  (0x1C10, 0x4C4550434841204C45545445522050484120),
  (0x1C11, 0x4C4550434841204C455454455220464120),
  (0x1C12, 0x4C4550434841204C455454455220464C4120),
  (0x1C13, 0x4C4550434841204C455454455220424120),
  (0x1C14, 0x4C4550434841204C455454455220424C4120),
  (0x1C15, 0x4C4550434841204C4554544552204D4120),
  (0x1C16, 0x4C4550434841204C4554544552204D4C4120),
  (0x1C17, 0x4C4550434841204C45545445522054534120),
  (0x1C18, 0x4C4550434841204C4554544552205453484120),
  (0x1C19, 0x4C4550434841204C455454455220445A4120),
  (0x1C1A, 0x4C4550434841204C455454455220594120),
  (0x1C1B, 0x4C4550434841204C455454455220524120),
  (0x1C1C, 0x4C4550434841204C4554544552204C4120),
  (0x1C1D, 0x4C4550434841204C455454455220484120),
  (0x1C1E, 0x4C4550434841204C455454455220484C4120),
  (0x1C1F, 0x4C4550434841204C455454455220564120),
  (0x1C20, 0x4C4550434841204C455454455220534120),
  (0x1C21, 0x4C4550434841204C45545445522053484120),
  (0x1C22, 0x4C4550434841204C455454455220574120),
  (0x1C23, 0x4C4550434841204C4554544552204120),
  (0x1C24, 0x4C4550434841205355424A4F494E4544204C455454455220594120),
  (0x1C25, 0x4C4550434841205355424A4F494E4544204C455454455220524120),
  (0x1C26, 0x4C455043484120564F57454C205349474E20414120),
  (0x1C27, 0x4C455043484120564F57454C205349474E204920),
  (0x1C28, 0x4C455043484120564F57454C205349474E204F20),
  (0x1C29, 0x4C455043484120564F57454C205349474E204F4F20),
  (0x1C2A, 0x4C455043484120564F57454C205349474E205520),
  (0x1C2B, 0x4C455043484120564F57454C205349474E20555520),
  (0x1C2C, 0x4C455043484120564F57454C205349474E204520),
  (0x1C2D, 0x4C455043484120434F4E534F4E414E54205349474E204B20),
  (0x1C2E, 0x4C455043484120434F4E534F4E414E54205349474E204D20),
  (0x1C2F, 0x4C455043484120434F4E534F4E414E54205349474E204C20),
  (0x1C30, 0x4C455043484120434F4E534F4E414E54205349474E204E20),
  (0x1C31, 0x4C455043484120434F4E534F4E414E54205349474E205020),
  (0x1C32, 0x4C455043484120434F4E534F4E414E54205349474E205220),
  (0x1C33, 0x4C455043484120434F4E534F4E414E54205349474E205420),
  (0x1C34, 0x4C455043484120434F4E534F4E414E54205349474E204E59494E2D444F20),
  (0x1C35, 0x4C455043484120434F4E534F4E414E54205349474E204B414E4720),
  (0x1C36, 0x4C4550434841205349474E2052414E20),
  (0x1C37, 0x4C4550434841205349474E204E554B544120),
  (0x1C3B, 0x4C45504348412050554E4354554154494F4E2054412D524F4C20),
  (0x1C3C, 0x4C45504348412050554E4354554154494F4E204E594554205448594F4F4D2054412D524F4C20),
  (0x1C3D, 0x4C45504348412050554E4354554154494F4E204345522D574120),
  (0x1C3E, 0x4C45504348412050554E4354554154494F4E205453484F4F4B204345522D574120),
  (0x1C3F, 0x4C45504348412050554E4354554154494F4E205453484F4F4B20),
  (0x1C40, 0x4C4550434841204449474954205A45524F20),
  (0x1C41, 0x4C4550434841204449474954204F4E4520),
  (0x1C42, 0x4C45504348412044494749542054574F20),
  (0x1C43, 0x4C455043484120444947495420544852454520),
  (0x1C44, 0x4C455043484120444947495420464F555220),
  (0x1C45, 0x4C4550434841204449474954204649564520),
  (0x1C46, 0x4C45504348412044494749542053495820),
  (0x1C47, 0x4C455043484120444947495420534556454E20),
  (0x1C48, 0x4C455043484120444947495420454947485420),
  (0x1C49, 0x4C4550434841204449474954204E494E4520),
  (0x1C4D, 0x4C4550434841204C45545445522054544120),
  (0x1C4E, 0x4C4550434841204C4554544552205454484120),
  (0x1C4F, 0x4C4550434841204C45545445522044444120),
  (0x1C50, 0x4F4C204348494B49204449474954205A45524F20),
  (0x1C51, 0x4F4C204348494B49204449474954204F4E4520),
  (0x1C52, 0x4F4C204348494B492044494749542054574F20),
  (0x1C53, 0x4F4C204348494B4920444947495420544852454520)]
def names_98 : List (Nat × Nat) := [
  (0x1C54, 0x4F4C204348494B4920444947495420464F555220),
  (0x1C55, 0x4F4C204348494B49204449474954204649564520),
  (0x1C56, 0x4F4C204348494B492044494749542053495820),
  (0x1C57, 0x4F4C204348494B4920444947495420534556454E20),
  (0x1C58, 0x4F4C204348494B4920444947495420454947485420),
  (0x1C59, 0x4F4C204348494B49204449474954204E494E4520),
  (0x1C5A, 0x4F4C204348494B49204C4554544552204C4120),
  (0x1C5B, 0x4F4C204348494B49204C455454455220415420),
  (0x1C5C, 0x4F4C204348494B49204C455454455220414720),
  (0x1C5D, 0x4F4C204348494B49204C455454455220414E4720),
  (0x1C5E, 0x4F4C204348494B49204C455454455220414C20),
  (0x1C5F, 0x4F4C204348494B49204C4554544552204C414120),
  (0x1C60, 0x4F4C204348494B49204C45545445522041414B20),
  (0x1C61, 0x4F4C204348494B49204C45545445522041414A20),
  (0x1C62, 0x4F4C204348494B49204C45545445522041414D20),
  (0x1C63, 0x4F4C204348494B49204C45545445522041415720),
  (0x1C64, 0x4F4C204348494B49204C4554544552204C4920),
  (0x1C65, 0x4F4C204348494B49204C455454455220495320),
  (0x1C66, 0x4F4C204348494B49204C455454455220494820),
  (0x1C67, 0x4F4C204348494B49204C455454455220494E5920),
  (0x1C68, 0x4F4C204348494B49204C455454455220495220),
  (0x1C69, 0x4F4C204348494B49204C4554544552204C5520),
  (0x1C6A, 0x4F4C204348494B49204C455454455220554320),
  (0x1C6B, 0x4F4C204348494B49204C455454455220554420),
  (0x1C6C, 0x4F4C204348494B49204C455454455220554E4E20),
  (0x1C6D, 0x4F4C204348494B49204C455454455220555920),
  (0x1C6E, 0x4F4C204348494B49204C4554544552204C4520),
  (0x1C6F, 0x4F4C204348494B49204C455454455220455020),
  (0x1C70, 0x4F4C204348494B49204C45545445522045444420),
  (0x1C71, 0x4F4C204348494B49204C455454455220454E20),
  (0x1C72, 0x4F4C204348494B49204C45545445522045525220),
  (0x1C73, 0x4F4C204348494B49204C4554544552204C4F20),
  (0x1C74, 0x4F4C204348494B49204C4554544552204F545420),
  (0x1C75, 0x4F4C204348494B49204C4554544552204F4220),
  (0x1C76, 0x4F4C204348494B49204C4554544552204F5620),
  (0x1C77, 0x4F4C204348494B49204C4554544552204F4820),
  (0x1C78, 0x4F4C204348494B49204D55205454554444414720),
  (0x1C79, 0x4F4C204348494B4920474141484C414120545455444441414720),
  (0x1C7A, 0x4F4C204348494B49204D552D474141484C414120545455444441414720),
  (0x1C7B, 0x4F4C204348494B492052454C414120),
  (0x1C7C, 0x4F4C204348494B492050484141524B414120),
  (0x1C7D, 0x4F4C204348494B49204148414420),
  (0x1C7E, 0x4F4C204348494B492050554E4354554154494F4E204D554341414420),
  (0x1C7F, 0x4F4C204348494B492050554E4354554154494F4E20444F55424C45204D554341414420),
  (0x1C80, 0x435952494C4C494320534D414C4C204C455454455220524F554E44454420564520),
  (0x1C81, 0x435952494C4C494320534D414C4C204C4554544552204C4F4E472D4C454747454420444520),
  (0x1C82, 0x435952494C4C494320534D414C4C204C4554544552204E4152524F57204F20),
  (0x1C83, 0x435952494C4C494320534D414C4C204C4554544552205749444520455320),
  (0x1C84, 0x435952494C4C494320534D414C4C204C45545445522054414C4C20544520),
  (0x1C85, 0x435952494C4C494320534D414C4C204C45545445522054485245452D4C454747454420544520),
  (0x1C86, 0x435952494C4C494320534D414C4C204C45545445522054414C4C2048415244205349474E20),
  (0x1C87, 0x435952494C4C494320534D414C4C204C45545445522054414C4C2059415420),
  (0x1C88, 0x435952494C4C494320534D414C4C204C455454455220554E424C454E44454420554B20),
  (0x1CC0, 0x53554E44414E4553452050554E4354554154494F4E2042494E445520535552594120),
  (0x1CC1, 0x53554E44414E4553452050554E4354554154494F4E2042494E44552050414E474C4F4E4720),
  (0x1CC2, 0x53554E44414E4553452050554E4354554154494F4E2042494E4455205055524E414D4120),
  (0x1CC3, 0x53554E44414E4553452050554E4354554154494F4E2042494E44552043414B524120),
  (0x1CC4, 0x53554E44414E4553452050554E4354554154494F4E2042494E4455204C455520534154414E474120),
  (0x1CC5, 0x53554E44414E4553452050554E4354554154494F4E2042494E4455204B4120534154414E474120),
  (0x1CC6, 0x53554E44414E4553452050554E4354554154494F4E2042494E445520444120534154414E474120),
  (0x1CC7, 0x53554E44414E4553452050554E4354554154494F4E2042494E445520424120534154414E474120),
  (0x1CD0, 0x564544494320544F4E45204B41525348414E4120),
  (0x1CD1, 0x564544494320544F4E4520534841524120),
  (0x1CD2, 0x564544494320544F4E45205052454E4B484120)]
def names_99 : List (Nat × Nat) := [
  (0x1CD3, 0x5645444943205349474E204E494853485641534120),
  (0x1CD4, 0x5645444943205349474E2059414A55525645444943204D49444C494E45205356415249544120),
  (0x1CD5, 0x564544494320544F4E452059414A55525645444943204147475241564154454420494E444550454E44454E54205356415249544120),
  (0x1CD6, 0x564544494320544F4E452059414A5552564544494320494E444550454E44454E54205356415249544120),
  (0x1CD7, 0x564544494320544F4E452059414A55525645444943204B415448414B4120494E444550454E44454E54205356415249544120),
  (0x1CD8, 0x564544494320544F4E452043414E4452412042454C4F5720),
  (0x1CD9, 0x564544494320544F4E452059414A55525645444943204B415448414B4120494E444550454E44454E54205356415249544120534348524F4544455220),
  (0x1CDA, 0x564544494320544F4E4520444F55424C45205356415249544120),
  (0x1CDB, 0x564544494320544F4E4520545249504C45205356415249544120),
  (0x1CDC, 0x564544494320544F4E45204B415448414B4120414E55444154544120),
  (0x1CDD, 0x564544494320544F4E4520444F542042454C4F5720),
  (0x1CDE, 0x564544494320544F4E452054574F20444F54532042454C4F5720),
  (0x1CDF, 0x564544494320544F4E4520544852454520444F54532042454C4F5720),
  (0x1CE0, 0x564544494320544F4E45205249475645444943204B4153484D49524920494E444550454E44454E54205356415249544120),
  (0x1CE1, 0x564544494320544F4E452041544841525641564544494320494E444550454E44454E54205356415249544120),
  (0x1CE2, 0x5645444943205349474E2056495341524741205356415249544120),
  (0x1CE3, 0x5645444943205349474E20564953415247412055444154544120),
  (0x1CE4, 0x5645444943205349474E20524556455253454420564953415247412055444154544120),
  (0x1CE5, 0x5645444943205349474E205649534152474120414E55444154544120),
  (0x1CE6, 0x5645444943205349474E205245564552534544205649534152474120414E55444154544120),
  (0x1CE7, 0x5645444943205349474E2056495341524741205544415454412057495448205441494C20),
  (0x1CE8, 0x5645444943205349474E205649534152474120414E5544415454412057495448205441494C20),
  (0x1CE9, 0x5645444943205349474E20414E55535641524120414E544152474F4D554B484120),
  (0x1CEA, 0x5645444943205349474E20414E555356415241204241484952474F4D554B484120),
  (0x1CEB, 0x5645444943205349474E20414E5553564152412056414D41474F4D554B484120),
  (0x1CEC, 0x5645444943205349474E20414E5553564152412056414D41474F4D554B48412057495448205441494C20),
  (0x1CED, 0x5645444943205349474E2054495259414B20),
  (0x1CEE, 0x5645444943205349474E2048455849464F524D204C4F4E4720414E55535641524120),
  (0x1CEF, 0x5645444943205349474E204C4F4E4720414E55535641524120),
  (0x1CF0, 0x5645444943205349474E20525448414E47204C4F4E4720414E55535641524120),
  (0x1CF1, 0x5645444943205349474E20414E55535641524120554248415941544F204D554B484120),
  (0x1CF2, 0x5645444943205349474E2041524448415649534152474120),
  (0x1CF3, 0x5645444943205349474E20524F54415445442041524448415649534152474120),
  (0x1CF4, 0x564544494320544F4E452043414E4452412041424F564520),
  (0x1CF5, 0x5645444943205349474E204A494856414D554C49594120),
  (0x1CF6, 0x5645444943205349474E2055504144484D414E49594120),
  (0x1CF7, 0x5645444943205349474E204154494B52414D4120),
  (0x1CF8, 0x564544494320544F4E452052494E472041424F564520),
  (0x1CF9, 0x564544494320544F4E4520444F55424C452052494E472041424F564520),
  (0x1D00, 0x4C4154494E204C455454455220534D414C4C204341504954414C204120),
  (0x1D01, 0x4C4154494E204C455454455220534D414C4C204341504954414C20414520),
  (0x1D02, 0x4C4154494E20534D414C4C204C4554544552205455524E454420414520),
  (0x1D03, 0x4C4154494E204C455454455220534D414C4C204341504954414C20424152524544204220),
  (0x1D04, 0x4C4154494E204C455454455220534D414C4C204341504954414C204320),
  (0x1D05, 0x4C4154494E204C455454455220534D414C4C204341504954414C204420),
  (0x1D06, 0x4C4154494E204C455454455220534D414C4C204341504954414C2045544820),
  (0x1D07, 0x4C4154494E204C455454455220534D414C4C204341504954414C204520),
  (0x1D08, 0x4C4154494E20534D414C4C204C4554544552205455524E4544204F50454E204520),
  (0x1D09, 0x4C4154494E20534D414C4C204C4554544552205455524E4544204920),
  (0x1D0A, 0x4C4154494E204C455454455220534D414C4C204341504954414C204A20),
  (0x1D0B, 0x4C4154494E204C455454455220534D414C4C204341504954414C204B20),
  (0x1D0C, 0x4C4154494E204C455454455220534D414C4C204341504954414C204C2057495448205354524F4B4520),
  (0x1D0D, 0x4C4154494E204C455454455220534D414C4C204341504954414C204D20),
  (0x1D0E, 0x4C4154494E204C455454455220534D414C4C204341504954414C205245564552534544204E20),
  (0x1D0F, 0x4C4154494E204C455454455220534D414C4C204341504954414C204F20),
  (0x1D10, 0x4C4154494E204C455454455220534D414C4C204341504954414C204F50454E204F20),
  (0x1D11, 0x4C4154494E20534D414C4C204C4554544552205349444557415953204F20),
  (0x1D12, 0x4C4154494E20534D414C4C204C4554544552205349444557415953204F50454E204F20),
  (0x1D13, 0x4C4154494E20534D414C4C204C4554544552205349444557415953204F2057495448205354524F4B4520),
  (0x1D14, 0x4C4154494E20534D414C4C204C4554544552205455524E4544204F4520),
  (0x1D15, 0x4C4154494E204C455454455220534D414C4C204341504954414C204F5520),
  (0x1D16, 0x4C4154494E20534D414C4C204C455454455220544F502048414C46204F20),
  (0x1D17, 0x4C4154494E20534D414C4C204C455454455220424F54544F4D2048414C46204F20),
  (0x1D18, 0x4C4154494E204C455454455220534D414C4C204341504954414C205020)]
def names_100 : List (Nat × Nat) := [
  (0x1D19, 0x4C4154494E204C455454455220534D414C4C204341504954414C205245564552534544205220),
  (0x1D1A, 0x4C4154494E204C455454455220534D414C4C204341504954414C205455524E4544205220),
  (0x1D1B, 0x4C4154494E204C455454455220534D414C4C204341504954414C205420),
  (0x1D1C, 0x4C4154494E204C455454455220534D414C4C204341504954414C205520),
  (0x1D1D, 0x4C4154494E20534D414C4C204C4554544552205349444557415953205520),
  (0x1D1E, 0x4C4154494E20534D414C4C204C45545445522053494445574159532044494145524553495A4544205520),
  (0x1D1F, 0x4C4154494E20534D414C4C204C4554544552205349444557415953205455524E4544204D20),
  (0x1D20, 0x4C4154494E204C455454455220534D414C4C204341504954414C205620),
  (0x1D21, 0x4C4154494E204C455454455220534D414C4C204341504954414C205720),
  (0x1D22, 0x4C4154494E204C455454455220534D414C4C204341504954414C205A20),
  (0x1D23, 0x4C4154494E204C455454455220534D414C4C204341504954414C20455A4820),
  (0x1D24, 0x4C4154494E204C455454455220564F49434544204C4152594E4745414C2053504952414E5420),
  (0x1D25, 0x4C4154494E204C45545445522041494E20),
  (0x1D26, 0x475245454B204C455454455220534D414C4C204341504954414C2047414D4D4120),
  (0x1D27, 0x475245454B204C455454455220534D414C4C204341504954414C204C414D444120),
  (0x1D28, 0x475245454B204C455454455220534D414C4C204341504954414C20504920),
  (0x1D29, 0x475245454B204C455454455220534D414C4C204341504954414C2052484F20),
  (0x1D2A, 0x475245454B204C455454455220534D414C4C204341504954414C2050534920),
  (0x1D2B, 0x435952494C4C4943204C455454455220534D414C4C204341504954414C20454C20),
  (0x1D2C, 0x4D4F444946494552204C4554544552204341504954414C204120),
  (0x1D2D, 0x4D4F444946494552204C4554544552204341504954414C20414520),
  (0x1D2E, 0x4D4F444946494552204C4554544552204341504954414C204220),
  (0x1D2F, 0x4D4F444946494552204C4554544552204341504954414C20424152524544204220),
  (0x1D30, 0x4D4F444946494552204C4554544552204341504954414C204420),
  (0x1D31, 0x4D4F444946494552204C4554544552204341504954414C204520),
  (0x1D32, 0x4D4F444946494552204C4554544552204341504954414C205245564552534544204520),
  (0x1D33, 0x4D4F444946494552204C4554544552204341504954414C204720),
  (0x1D34, 0x4D4F444946494552204C4554544552204341504954414C204820),
  (0x1D35, 0x4D4F444946494552204C4554544552204341504954414C204920),
  (0x1D36, 0x4D4F444946494552204C4554544552204341504954414C204A20),
  (0x1D37, 0x4D4F444946494552204C4554544552204341504954414C204B20),
  (0x1D38, 0x4D4F444946494552204C4554544552204341504954414C204C20),
  (0x1D39, 0x4D4F444946494552204C4554544552204341504954414C204D20),
  (0x1D3A, 0x4D4F444946494552204C4554544552204341504954414C204E20),
  (0x1D3B, 0x4D4F444946494552204C4554544552204341504954414C205245564552534544204E20),
  (0x1D3C, 0x4D4F444946494552204C4554544552204341504954414C204F20),
  (0x1D3D, 0x4D4F444946494552204C4554544552204341504954414C204F5520),
  (0x1D3E, 0x4D4F444946494552204C4554544552204341504954414C205020),
  (0x1D3F, 0x4D4F444946494552204C4554544552204341504954414C205220),
  (0x1D40, 0x4D4F444946494552204C4554544552204341504954414C205420),
  (0x1D41, 0x4D4F444946494552204C4554544552204341504954414C205520),
  (0x1D42, 0x4D4F444946494552204C4554544552204341504954414C205720),
  (0x1D43, 0x4D4F444946494552204C455454455220534D414C4C204120),
  (0x1D44, 0x4D4F444946494552204C455454455220534D414C4C205455524E4544204120),
  (0x1D45, 0x4D4F444946494552204C455454455220534D414C4C20414C50484120),
  (0x1D46, 0x4D4F444946494552204C455454455220534D414C4C205455524E454420414520),
  (0x1D47, 0x4D4F444946494552204C455454455220534D414C4C204220),
  (0x1D48, 0x4D4F444946494552204C455454455220534D414C4C204420),
  (0x1D49, 0x4D4F444946494552204C455454455220534D414C4C204520),
  (0x1D4A, 0x4D4F444946494552204C455454455220534D414C4C20534348574120),
  (0x1D4B, 0x4D4F444946494552204C455454455220534D414C4C204F50454E204520),
  (0x1D4C, 0x4D4F444946494552204C455454455220534D414C4C205455524E4544204F50454E204520),
  (0x1D4D, 0x4D4F444946494552204C455454455220534D414C4C204720),
  (0x1D4E, 0x4D4F444946494552204C455454455220534D414C4C205455524E4544204920),
  (0x1D4F, 0x4D4F444946494552204C455454455220534D414C4C204B20),
  (0x1D50, 0x4D4F444946494552204C455454455220534D414C4C204D20),
  (0x1D51, 0x4D4F444946494552204C455454455220534D414C4C20454E4720),
  (0x1D52, 0x4D4F444946494552204C455454455220534D414C4C204F20),
  (0x1D53, 0x4D4F444946494552204C455454455220534D414C4C204F50454E204F20),
  (0x1D54, 0x4D4F444946494552204C455454455220534D414C4C20544F502048414C46204F20),
  (0x1D55, 0x4D4F444946494552204C455454455220534D414C4C20424F54544F4D2048414C46204F20),
  (0x1D56, 0x4D4F444946494552204C455454455220534D414C4C205020),
  (0x1D57, 0x4D4F444946494552204C455454455220534D414C4C205420),
  (0x1D58, 0x4D4F444946494552204C455454455220534D414C4C205520)]
def names_101 : List (Nat × Nat) := [
  (0x1D59, 0x4D4F444946494552204C455454455220534D414C4C205349444557415953205520),
  (0x1D5A, 0x4D4F444946494552204C455454455220534D414C4C205455524E4544204D20),
  (0x1D5B, 0x4D4F444946494552204C455454455220534D414C4C205620),
  (0x1D5C, 0x4D4F444946494552204C455454455220534D414C4C2041494E20),
  (0x1D5D, 0x4D4F444946494552204C455454455220534D414C4C204245544120),
  (0x1D5E, 0x4D4F444946494552204C455454455220534D414C4C20475245454B2047414D4D4120),
  (0x1D5F, 0x4D4F444946494552204C455454455220534D414C4C2044454C544120),
  (0x1D60, 0x4D4F444946494552204C455454455220534D414C4C20475245454B2050484920),
  (0x1D61, 0x4D4F444946494552204C455454455220534D414C4C2043484920),
  (0x1D62, 0x4C4154494E2053554253435249505420534D414C4C204C4554544552204920),
  (0x1D63, 0x4C4154494E2053554253435249505420534D414C4C204C4554544552205220),
  (0x1D64, 0x4C4154494E2053554253435249505420534D414C4C204C4554544552205520),
  (0x1D65, 0x4C4154494E2053554253435249505420534D414C4C204C4554544552205620),
  (0x1D66, 0x475245454B2053554253435249505420534D414C4C204C4554544552204245544120),
  (0x1D67, 0x475245454B2053554253435249505420534D414C4C204C45545445522047414D4D4120),
  (0x1D68, 0x475245454B2053554253435249505420534D414C4C204C45545445522052484F20),
  (0x1D69, 0x475245454B2053554253435249505420534D414C4C204C45545445522050484920),
  (0x1D6A, 0x475245454B2053554253435249505420534D414C4C204C45545445522043484920),
  (0x1D6B, 0x4C4154494E20534D414C4C204C455454455220554520),
  (0x1D6C, 0x4C4154494E20534D414C4C204C455454455220422057495448204D4944444C452054494C444520),
  (0x1D6D, 0x4C4154494E20534D414C4C204C455454455220442057495448204D4944444C452054494C444520),
  (0x1D6E, 0x4C4154494E20534D414C4C204C455454455220462057495448204D4944444C452054494C444520),
  (0x1D6F, 0x4C4154494E20534D414C4C204C4554544552204D2057495448204D4944444C452054494C444520),
  (0x1D70, 0x4C4154494E20534D414C4C204C4554544552204E2057495448204D4944444C452054494C444520),
  (0x1D71, 0x4C4154494E20534D414C4C204C455454455220502057495448204D4944444C452054494C444520),
  (0x1D72, 0x4C4154494E20534D414C4C204C455454455220522057495448204D4944444C452054494C444520),
  (0x1D73, 0x4C4154494E20534D414C4C204C4554544552205220574954482046495348484F4F4B20414E44204D4944444C452054494C444520),
  (0x1D74, 0x4C4154494E20534D414C4C204C455454455220532057495448204D4944444C452054494C444520),
  (0x1D75, 0x4C4154494E20534D414C4C204C455454455220542057495448204D4944444C452054494C444520),
  (0x1D76, 0x4C4154494E20534D414C4C204C4554544552205A2057495448204D4944444C452054494C444520),
  (0x1D77, 0x4C4154494E20534D414C4C204C4554544552205455524E4544204720),
  (0x1D78, 0x4D4F444946494552204C455454455220435952494C4C494320454E20),
  (0x1D79, 0x4C4154494E20534D414C4C204C455454455220494E53554C4152204720),
  (0x1D7A, 0x4C4154494E20534D414C4C204C4554544552205448205749544820535452494B455448524F55474820),
  (0x1D7B, 0x4C4154494E20534D414C4C204341504954414C204C455454455220492057495448205354524F4B4520),
  (0x1D7C, 0x4C4154494E20534D414C4C204C455454455220494F54412057495448205354524F4B4520),
  (0x1D7D, 0x4C4154494E20534D414C4C204C455454455220502057495448205354524F4B4520),
  (0x1D7E, 0x4C4154494E20534D414C4C204341504954414C204C455454455220552057495448205354524F4B4520),
  (0x1D7F, 0x4C4154494E20534D414C4C204C455454455220555053494C4F4E2057495448205354524F4B4520),
  (0x1D80, 0x4C4154494E20534D414C4C204C4554544552204220574954482050414C4154414C20484F4F4B20),
  (0x1D81, 0x4C4154494E20534D414C4C204C4554544552204420574954482050414C4154414C20484F4F4B20),
  (0x1D82, 0x4C4154494E20534D414C4C204C4554544552204620574954482050414C4154414C20484F4F4B20),
  (0x1D83, 0x4C4154494E20534D414C4C204C4554544552204720574954482050414C4154414C20484F4F4B20),
  (0x1D84, 0x4C4154494E20534D414C4C204C4554544552204B20574954482050414C4154414C20484F4F4B20),
  (0x1D85, 0x4C4154494E20534D414C4C204C4554544552204C20574954482050414C4154414C20484F4F4B20),
  (0x1D86, 0x4C4154494E20534D414C4C204C4554544552204D20574954482050414C4154414C20484F4F4B20),
  (0x1D87, 0x4C4154494E20534D414C4C204C4554544552204E20574954482050414C4154414C20484F4F4B20),
  (0x1D88, 0x4C4154494E20534D414C4C204C4554544552205020574954482050414C4154414C20484F4F4B20),
  (0x1D89, 0x4C4154494E20534D414C4C204C4554544552205220574954482050414C4154414C20484F4F4B20),
  (0x1D8A, 0x4C4154494E20534D414C4C204C4554544552205320574954482050414C4154414C20484F4F4B20),
  (0x1D8B, 0x4C4154494E20534D414C4C204C45545445522045534820574954482050414C4154414C20484F4F4B20),
  (0x1D8C, 0x4C4154494E20534D414C4C204C4554544552205620574954482050414C4154414C20484F4F4B20),
  (0x1D8D, 0x4C4154494E20534D414C4C204C4554544552205820574954482050414C4154414C20484F4F4B20),
  (0x1D8E, 0x4C4154494E20534D414C4C204C4554544552205A20574954482050414C4154414C20484F4F4B20),
  (0x1D8F, 0x4C4154494E20534D414C4C204C45545445522041205749544820524554524F464C455820484F4F4B20),
  (0x1D90, 0x4C4154494E20534D414C4C204C455454455220414C504841205749544820524554524F464C455820484F4F4B20),
  (0x1D91, 0x4C4154494E20534D414C4C204C45545445522044205749544820484F4F4B20414E44205441494C20),
  (0x1D92, 0x4C4154494E20534D414C4C204C45545445522045205749544820524554524F464C455820484F4F4B20),
  (0x1D93, 0x4C4154494E20534D414C4C204C4554544552204F50454E2045205749544820524554524F464C455820484F4F4B20),
  (0x1D94, 0x4C4154494E20534D414C4C204C4554544552205245564552534544204F50454E2045205749544820524554524F464C455820484F4F4B20),
  (0x1D95, 0x4C4154494E20534D414C4C204C4554544552205343485741205749544820524554524F464C455820484F4F4B20),
  (0x1D96, 0x4C4154494E20534D414C4C204C45545445522049205749544820524554524F464C455820484F4F4B20),
  (0x1D97, 0x4C4154494E20534D414C4C204C4554544552204F50454E204F205749544820524554524F464C455820484F4F4B20),
  (0x1D98, 0x4C4154494E20534D414C4C204C455454455220455348205749544820524554524F464C455820484F4F4B20)]
def names_102 : List (Nat × Nat) := [
  (0x1D99, 0x4C4154494E20534D414C4C204C45545445522055205749544820524554524F464C455820484F4F4B20),
  (0x1D9A, 0x4C4154494E20534D414C4C204C455454455220455A48205749544820524554524F464C455820484F4F4B20),
  (0x1D9B, 0x4D4F444946494552204C455454455220534D414C4C205455524E454420414C50484120),
  (0x1D9C, 0x4D4F444946494552204C455454455220534D414C4C204320),
  (0x1D9D, 0x4D4F444946494552204C455454455220534D414C4C20432057495448204355524C20),
  (0x1D9E, 0x4D4F444946494552204C455454455220534D414C4C2045544820),
  (0x1D9F, 0x4D4F444946494552204C455454455220534D414C4C205245564552534544204F50454E204520),
  (0x1DA0, 0x4D4F444946494552204C455454455220534D414C4C204620),
  (0x1DA1, 0x4D4F444946494552204C455454455220534D414C4C20444F544C455353204A2057495448205354524F4B4520),
  (0x1DA2, 0x4D4F444946494552204C455454455220534D414C4C20534352495054204720),
  (0x1DA3, 0x4D4F444946494552204C455454455220534D414C4C205455524E4544204820),
  (0x1DA4, 0x4D4F444946494552204C455454455220534D414C4C20492057495448205354524F4B4520),
  (0x1DA5, 0x4D4F444946494552204C455454455220534D414C4C20494F544120),
  (0x1DA6, 0x4D4F444946494552204C455454455220534D414C4C204341504954414C204920),
  (0x1DA7, 0x4D4F444946494552204C455454455220534D414C4C204341504954414C20492057495448205354524F4B4520),
  (0x1DA8, 0x4D4F444946494552204C455454455220534D414C4C204A20574954482043524F535345442D5441494C20),
  (0x1DA9, 0x4D4F444946494552204C455454455220534D414C4C204C205749544820524554524F464C455820484F4F4B20),
  (0x1DAA, 0x4D4F444946494552204C455454455220534D414C4C204C20574954482050414C4154414C20484F4F4B20),
  (0x1DAB, 0x4D4F444946494552204C455454455220534D414C4C204341504954414C204C20),
  (0x1DAC, 0x4D4F444946494552204C455454455220534D414C4C204D205749544820484F4F4B20),
  (0x1DAD, 0x4D4F444946494552204C455454455220534D414C4C205455524E4544204D2057495448204C4F4E47204C454720),
  (0x1DAE, 0x4D4F444946494552204C455454455220534D414C4C204E2057495448204C45465420484F4F4B20),
  (0x1DAF, 0x4D4F444946494552204C455454455220534D414C4C204E205749544820524554524F464C455820484F4F4B20),
  (0x1DB0, 0x4D4F444946494552204C455454455220534D414C4C204341504954414C204E20),
  (0x1DB1, 0x4D4F444946494552204C455454455220534D414C4C20424152524544204F20),
  (0x1DB2, 0x4D4F444946494552204C455454455220534D414C4C2050484920),
  (0x1DB3, 0x4D4F444946494552204C455454455220534D414C4C2053205749544820484F4F4B20),
  (0x1DB4, 0x4D4F444946494552204C455454455220534D414C4C2045534820),
  (0x1DB5, 0x4D4F444946494552204C455454455220534D414C4C205420574954482050414C4154414C20484F4F4B20),
  (0x1DB6, 0x4D4F444946494552204C455454455220534D414C4C20552042415220),
  (0x1DB7, 0x4D4F444946494552204C455454455220534D414C4C20555053494C4F4E20),
  (0x1DB8, 0x4D4F444946494552204C455454455220534D414C4C204341504954414C205520),
  (0x1DB9, 0x4D4F444946494552204C455454455220534D414C4C2056205749544820484F4F4B20),
  (0x1DBA, 0x4D4F444946494552204C455454455220534D414C4C205455524E4544205620),
  (0x1DBB, 0x4D4F444946494552204C455454455220534D414C4C205A20),
  (0x1DBC, 0x4D4F444946494552204C455454455220534D414C4C205A205749544820524554524F464C455820484F4F4B20),
  (0x1DBD, 0x4D4F444946494552204C455454455220534D414C4C205A2057495448204355524C20),
  (0x1DBE, 0x4D4F444946494552204C455454455220534D414C4C20455A4820),
  (0x1DBF, 0x4D4F444946494552204C455454455220534D414C4C20544845544120),
  (0x1DC0, 0x434F4D42494E494E4720444F5454454420475241564520414343454E5420),
  (0x1DC1, 0x434F4D42494E494E4720444F5454454420414355544520414343454E5420),
  (0x1DC2, 0x434F4D42494E494E4720534E414B452042454C4F5720),
  (0x1DC3, 0x434F4D42494E494E472053555350454E53494F4E204D41524B20),
  (0x1DC4, 0x434F4D42494E494E47204D4143524F4E2D414355544520),
  (0x1DC5, 0x434F4D42494E494E472047524156452D4D4143524F4E20),
  (0x1DC6, 0x434F4D42494E494E47204D4143524F4E2D475241564520),
  (0x1DC7, 0x434F4D42494E494E472041435554452D4D4143524F4E20),
  (0x1DC8, 0x434F4D42494E494E472047524156452D41435554452D475241564520),
  (0x1DC9, 0x434F4D42494E494E472041435554452D47524156452D414355544520),
  (0x1DCA, 0x434F4D42494E494E47204C4154494E20534D414C4C204C455454455220522042454C4F5720),
  (0x1DCB, 0x434F4D42494E494E472042524556452D4D4143524F4E20),
  (0x1DCC, 0x434F4D42494E494E47204D4143524F4E2D425245564520),
  (0x1DCD, 0x434F4D42494E494E4720444F55424C452043495243554D464C45582041424F564520),
  (0x1DCE, 0x434F4D42494E494E47204F474F4E454B2041424F564520),
  (0x1DCF, 0x434F4D42494E494E47205A49475A41472042454C4F5720),
  (0x1DD0, 0x434F4D42494E494E472049532042454C4F5720),
  (0x1DD1, 0x434F4D42494E494E472055522041424F564520),
  (0x1DD2, 0x434F4D42494E494E472055532041424F564520),
  (0x1DD3, 0x434F4D42494E494E47204C4154494E20534D414C4C204C455454455220464C415454454E4544204F50454E20412041424F564520),
  (0x1DD4, 0x434F4D42494E494E47204C4154494E20534D414C4C204C455454455220414520),
  (0x1DD5, 0x434F4D42494E494E47204C4154494E20534D414C4C204C455454455220414F20),
  (0x1DD6, 0x434F4D42494E494E47204C4154494E20534D414C4C204C455454455220415620),
  (0x1DD7, 0x434F4D42494E494E47204C4154494E20534D414C4C204C4554544552204320434544494C4C4120),
  (0x1DD8, 0x434F4D42494E494E47204C4154494E20534D414C4C204C455454455220494E53554C4152204420)]
def names_103 : List (Nat × Nat) := [
  (0x1DD9, 0x434F4D42494E494E47204C4154494E20534D414C4C204C45545445522045544820),
  (0x1DDA, 0x434F4D42494E494E47204C4154494E20534D414C4C204C4554544552204720),
  (0x1DDB, 0x434F4D42494E494E47204C4154494E204C455454455220534D414C4C204341504954414C204720),
  (0x1DDC, 0x434F4D42494E494E47204C4154494E20534D414C4C204C4554544552204B20),
  (0x1DDD, 0x434F4D42494E494E47204C4154494E20534D414C4C204C4554544552204C20),
  (0x1DDE, 0x434F4D42494E494E47204C4154494E204C455454455220534D414C4C204341504954414C204C20),
  (0x1DDF, 0x434F4D42494E494E47204C4154494E204C455454455220534D414C4C204341504954414C204D20),
  (0x1DE0, 0x434F4D42494E494E47204C4154494E20534D414C4C204C4554544552204E20),
  (0x1DE1, 0x434F4D42494E494E47204C4154494E204C455454455220534D414C4C204341504954414C204E20),
  (0x1DE2, 0x434F4D42494E494E47204C4154494E204C455454455220534D414C4C204341504954414C205220),
  (0x1DE3, 0x434F4D42494E494E47204C4154494E20534D414C4C204C4554544552205220524F54554E444120),
  (0x1DE4, 0x434F4D42494E494E47204C4154494E20534D414C4C204C4554544552205320),
  (0x1DE5, 0x434F4D42494E494E47204C4154494E20534D414C4C204C4554544552204C4F4E47205320),
  (0x1DE6, 0x434F4D42494E494E47204C4154494E20534D414C4C204C4554544552205A20),
  (0x1DE7, 0x434F4D42494E494E47204C4154494E20534D414C4C204C455454455220414C50484120),
  (0x1DE8, 0x434F4D42494E494E47204C4154494E20534D414C4C204C4554544552204220),
  (0x1DE9, 0x434F4D42494E494E47204C4154494E20534D414C4C204C4554544552204245544120),
  (0x1DEA, 0x434F4D42494E494E47204C4154494E20534D414C4C204C455454455220534348574120),
  (0x1DEB, 0x434F4D42494E494E47204C4154494E20534D414C4C204C4554544552204620),
  (0x1DEC, 0x434F4D42494E494E47204C4154494E20534D414C4C204C4554544552204C205749544820444F55424C45204D4944444C452054494C444520),
  (0x1DED, 0x434F4D42494E494E47204C4154494E20534D414C4C204C4554544552204F2057495448204C494748542043454E5452414C495A4154494F4E205354524F4B4520),
  (0x1DEE, 0x434F4D42494E494E47204C4154494E20534D414C4C204C4554544552205020),
  (0x1DEF, 0x434F4D42494E494E47204C4154494E20534D414C4C204C45545445522045534820),
  (0x1DF0, 0x434F4D42494E494E47204C4154494E20534D414C4C204C455454455220552057495448204C494748542043454E5452414C495A4154494F4E205354524F4B4520),
  (0x1DF1, 0x434F4D42494E494E47204C4154494E20534D414C4C204C4554544552205720),
  (0x1DF2, 0x434F4D42494E494E47204C4154494E20534D414C4C204C4554544552204120574954482044494145524553495320),
  (0x1DF3, 0x434F4D42494E494E47204C4154494E20534D414C4C204C4554544552204F20574954482044494145524553495320),
  (0x1DF4, 0x434F4D42494E494E47204C4154494E20534D414C4C204C4554544552205520574954482044494145524553495320),
  (0x1DF5, 0x434F4D42494E494E47205550205441434B2041424F564520),
  (0x1DF6, 0x434F4D42494E494E47204B4156594B412041424F564520524947485420),
  (0x1DF7, 0x434F4D42494E494E47204B4156594B412041424F5645204C45465420),
  (0x1DF8, 0x434F4D42494E494E4720444F542041424F5645204C45465420),
  (0x1DF9, 0x434F4D42494E494E47205749444520494E564552544544204252494447452042454C4F5720),
  (0x1DFB, 0x434F4D42494E494E472044454C4554494F4E204D41524B20),
  (0x1DFC, 0x434F4D42494E494E4720444F55424C4520494E5645525445442042524556452042454C4F5720),
  (0x1DFD, 0x434F4D42494E494E4720414C4D4F535420455155414C20544F2042454C4F5720),
  (0x1DFE, 0x434F4D42494E494E47204C454654204152524F57484541442041424F564520),
  (0x1DFF, 0x434F4D42494E494E47205249474854204152524F574845414420414E4420444F574E204152524F57484541442042454C4F5720),
  (0x1E00, 0x4C4154494E204341504954414C204C4554544552204120574954482052494E472042454C4F5720),
  (0x1E01, 0x4C4154494E20534D414C4C204C4554544552204120574954482052494E472042454C4F5720),
  (0x1E02, 0x4C4154494E204341504954414C204C45545445522042205749544820444F542041424F564520),
  (0x1E03, 0x4C4154494E20534D414C4C204C45545445522042205749544820444F542041424F564520),
  (0x1E04, 0x4C4154494E204341504954414C204C45545445522042205749544820444F542042454C4F5720),
  (0x1E05, 0x4C4154494E20534D414C4C204C45545445522042205749544820444F542042454C4F5720),
  (0x1E06, 0x4C4154494E204341504954414C204C455454455220422057495448204C494E452042454C4F5720),
  (0x1E07, 0x4C4154494E20534D414C4C204C455454455220422057495448204C494E452042454C4F5720),
  (0x1E08, 0x4C4154494E204341504954414C204C45545445522043205749544820434544494C4C4120414E4420414355544520),
  (0x1E09, 0x4C4154494E20534D414C4C204C45545445522043205749544820434544494C4C4120414E4420414355544520),
  (0x1E0A, 0x4C4154494E204341504954414C204C45545445522044205749544820444F542041424F564520),
  (0x1E0B, 0x4C4154494E20534D414C4C204C45545445522044205749544820444F542041424F564520),
  (0x1E0C, 0x4C4154494E204341504954414C204C45545445522044205749544820444F542042454C4F5720),
  (0x1E0D, 0x4C4154494E20534D414C4C204C45545445522044205749544820444F542042454C4F5720),
  (0x1E0E, 0x4C4154494E204341504954414C204C455454455220442057495448204C494E452042454C4F5720),
  (0x1E0F, 0x4C4154494E20534D414C4C204C455454455220442057495448204C494E452042454C4F5720),
  (0x1E10, 0x4C4154494E204341504954414C204C45545445522044205749544820434544494C4C4120),
  (0x1E11, 0x4C4154494E20534D414C4C204C45545445522044205749544820434544494C4C4120),
  (0x1E12, 0x4C4154494E204341504954414C204C4554544552204420574954482043495243554D464C45582042454C4F5720),
  (0x1E13, 0x4C4154494E20534D414C4C204C4554544552204420574954482043495243554D464C45582042454C4F5720),
  (0x1E14, 0x4C4154494E204341504954414C204C455454455220452057495448204D4143524F4E20414E4420475241564520),
  (0x1E15, 0x4C4154494E20534D414C4C204C455454455220452057495448204D4143524F4E20414E4420475241564520),
  (0x1E16, 0x4C4154494E204341504954414C204C455454455220452057495448204D4143524F4E20414E4420414355544520),
  (0x1E17, 0x4C4154494E20534D414C4C204C455454455220452057495448204D4143524F4E20414E4420414355544520),
  (0x1E18, 0x4C4154494E204341504954414C204C4554544552204520574954482043495243554D464C45582042454C4F5720),
  (0x1E19, 0x4C4154494E20534D414C4C204C4554544552204520574954482043495243554D464C45582042454C4F5720)]
def names_104 : List (Nat × Nat) := [
  (0x1E1A, 0x4C4154494E204341504954414C204C4554544552204520574954482054494C44452042454C4F5720),
  (0x1E1B, 0x4C4154494E20534D414C4C204C4554544552204520574954482054494C44452042454C4F5720),
  (0x1E1C, 0x4C4154494E204341504954414C204C45545445522045205749544820434544494C4C4120414E4420425245564520),
  (0x1E1D, 0x4C4154494E20534D414C4C204C45545445522045205749544820434544494C4C4120414E4420425245564520),
  (0x1E1E, 0x4C4154494E204341504954414C204C45545445522046205749544820444F542041424F564520),
  (0x1E1F, 0x4C4154494E20534D414C4C204C45545445522046205749544820444F542041424F564520),
  (0x1E20, 0x4C4154494E204341504954414C204C455454455220472057495448204D4143524F4E20),
  (0x1E21, 0x4C4154494E20534D414C4C204C455454455220472057495448204D4143524F4E20),
  (0x1E22, 0x4C4154494E204341504954414C204C45545445522048205749544820444F542041424F564520),
  (0x1E23, 0x4C4154494E20534D414C4C204C45545445522048205749544820444F542041424F564520),
  (0x1E24, 0x4C4154494E204341504954414C204C45545445522048205749544820444F542042454C4F5720),
  (0x1E25, 0x4C4154494E20534D414C4C204C45545445522048205749544820444F542042454C4F5720),
  (0x1E26, 0x4C4154494E204341504954414C204C4554544552204820574954482044494145524553495320),
  (0x1E27, 0x4C4154494E20534D414C4C204C4554544552204820574954482044494145524553495320),
  (0x1E28, 0x4C4154494E204341504954414C204C45545445522048205749544820434544494C4C4120),
  (0x1E29, 0x4C4154494E20534D414C4C204C45545445522048205749544820434544494C4C4120),
  (0x1E2A, 0x4C4154494E204341504954414C204C4554544552204820574954482042524556452042454C4F5720),
  (0x1E2B, 0x4C4154494E20534D414C4C204C4554544552204820574954482042524556452042454C4F5720),
  (0x1E2C, 0x4C4154494E204341504954414C204C4554544552204920574954482054494C44452042454C4F5720),
  (0x1E2D, 0x4C4154494E20534D414C4C204C4554544552204920574954482054494C44452042454C4F5720),
  (0x1E2E, 0x4C4154494E204341504954414C204C4554544552204920574954482044494145524553495320414E4420414355544520),
  (0x1E2F, 0x4C4154494E20534D414C4C204C4554544552204920574954482044494145524553495320414E4420414355544520),
  (0x1E30, 0x4C4154494E204341504954414C204C4554544552204B205749544820414355544520),
  (0x1E31, 0x4C4154494E20534D414C4C204C4554544552204B205749544820414355544520),
  (0x1E32, 0x4C4154494E204341504954414C204C4554544552204B205749544820444F542042454C4F5720),
  (0x1E33, 0x4C4154494E20534D414C4C204C4554544552204B205749544820444F542042454C4F5720),
  (0x1E34, 0x4C4154494E204341504954414C204C4554544552204B2057495448204C494E452042454C4F5720),
  (0x1E35, 0x4C4154494E20534D414C4C204C4554544552204B2057495448204C494E452042454C4F5720),
  (0x1E36, 0x4C4154494E204341504954414C204C4554544552204C205749544820444F542042454C4F5720),
  (0x1E37, 0x4C4154494E20534D414C4C204C4554544552204C205749544820444F542042454C4F5720),
  (0x1E38, 0x4C4154494E204341504954414C204C4554544552204C205749544820444F542042454C4F5720414E44204D4143524F4E20),
  (0x1E39, 0x4C4154494E20534D414C4C204C4554544552204C205749544820444F542042454C4F5720414E44204D4143524F4E20),
  (0x1E3A, 0x4C4154494E204341504954414C204C4554544552204C2057495448204C494E452042454C4F5720),
  (0x1E3B, 0x4C4154494E20534D414C4C204C4554544552204C2057495448204C494E452042454C4F5720),
  (0x1E3C, 0x4C4154494E204341504954414C204C4554544552204C20574954482043495243554D464C45582042454C4F5720),
  (0x1E3D, 0x4C4154494E20534D414C4C204C4554544552204C20574954482043495243554D464C45582042454C4F5720),
  (0x1E3E, 0x4C4154494E204341504954414C204C4554544552204D205749544820414355544520),
  (0x1E3F, 0x4C4154494E20534D414C4C204C4554544552204D205749544820414355544520),
  (0x1E40, 0x4C4154494E204341504954414C204C4554544552204D205749544820444F542041424F564520),
  (0x1E41, 0x4C4154494E20534D414C4C204C4554544552204D205749544820444F542041424F564520),
  (0x1E42, 0x4C4154494E204341504954414C204C4554544552204D205749544820444F542042454C4F5720),
  (0x1E43, 0x4C4154494E20534D414C4C204C4554544552204D205749544820444F542042454C4F5720),
  (0x1E44, 0x4C4154494E204341504954414C204C4554544552204E205749544820444F542041424F564520),
  (0x1E45, 0x4C4154494E20534D414C4C204C4554544552204E205749544820444F542041424F564520),
  (0x1E46, 0x4C4154494E204341504954414C204C4554544552204E205749544820444F542042454C4F5720),
  (0x1E47, 0x4C4154494E20534D414C4C204C4554544552204E205749544820444F542042454C4F5720),
  (0x1E48, 0x4C4154494E204341504954414C204C4554544552204E2057495448204C494E452042454C4F5720),
  (0x1E49, 0x4C4154494E20534D414C4C204C4554544552204E2057495448204C494E452042454C4F5720),
  (0x1E4A, 0x4C4154494E204341504954414C204C4554544552204E20574954482043495243554D464C45582042454C4F5720),
  (0x1E4B, 0x4C4154494E20534D414C4C204C4554544552204E20574954482043495243554D464C45582042454C4F5720),
  (0x1E4C, 0x4C4154494E204341504954414C204C4554544552204F20574954482054494C444520414E4420414355544520),
  (0x1E4D, 0x4C4154494E20534D414C4C204C4554544552204F20574954482054494C444520414E4420414355544520),
  (0x1E4E, 0x4C4154494E204341504954414C204C4554544552204F20574954482054494C444520414E442044494145524553495320),
  (0x1E4F, 0x4C4154494E20534D414C4C204C4554544552204F20574954482054494C444520414E442044494145524553495320),
  (0x1E50, 0x4C4154494E204341504954414C204C4554544552204F2057495448204D4143524F4E20414E4420475241564520),
  (0x1E51, 0x4C4154494E20534D414C4C204C4554544552204F2057495448204D4143524F4E20414E4420475241564520),
  (0x1E52, 0x4C4154494E204341504954414C204C4554544552204F2057495448204D4143524F4E20414E4420414355544520),
  (0x1E53, 0x4C4154494E20534D414C4C204C4554544552204F2057495448204D4143524F4E20414E4420414355544520),
  (0x1E54, 0x4C4154494E204341504954414C204C45545445522050205749544820414355544520),
  (0x1E55, 0x4C4154494E20534D414C4C204C45545445522050205749544820414355544520),
  (0x1E56, 0x4C4154494E204341504954414C204C45545445522050205749544820444F542041424F564520),
  (0x1E57, 0x4C4154494E20534D414C4C204C45545445522050205749544820444F542041424F564520),
  (0x1E58, 0x4C4154494E204341504954414C204C45545445522052205749544820444F542041424F564520),
  (0x1E59, 0x4C4154494E20534D414C4C204C45545445522052205749544820444F542041424F564520)]
def names_105 : List (Nat × Nat) := [
  (0x1E5A, 0x4C4154494E204341504954414C204C45545445522052205749544820444F542042454C4F5720),
  (0x1E5B, 0x4C4154494E20534D414C4C204C45545445522052205749544820444F542042454C4F5720),
  (0x1E5C, 0x4C4154494E204341504954414C204C45545445522052205749544820444F542042454C4F5720414E44204D4143524F4E20),
  (0x1E5D, 0x4C4154494E20534D414C4C204C45545445522052205749544820444F542042454C4F5720414E44204D4143524F4E20),
  (0x1E5E, 0x4C4154494E204341504954414C204C455454455220522057495448204C494E452042454C4F5720),
  (0x1E5F, 0x4C4154494E20534D414C4C204C455454455220522057495448204C494E452042454C4F5720),
  (0x1E60, 0x4C4154494E204341504954414C204C45545445522053205749544820444F542041424F564520),
  (0x1E61, 0x4C4154494E20534D414C4C204C45545445522053205749544820444F542041424F564520),
  (0x1E62, 0x4C4154494E204341504954414C204C45545445522053205749544820444F542042454C4F5720),
  (0x1E63, 0x4C4154494E20534D414C4C204C45545445522053205749544820444F542042454C4F5720),
  (0x1E64, 0x4C4154494E204341504954414C204C45545445522053205749544820414355544520414E4420444F542041424F564520),
  (0x1E65, 0x4C4154494E20534D414C4C204C45545445522053205749544820414355544520414E4420444F542041424F564520),
  (0x1E66, 0x4C4154494E204341504954414C204C455454455220532057495448204341524F4E20414E4420444F542041424F564520),
  (0x1E67, 0x4C4154494E20534D414C4C204C455454455220532057495448204341524F4E20414E4420444F542041424F564520),
  (0x1E68, 0x4C4154494E204341504954414C204C45545445522053205749544820444F542042454C4F5720414E4420444F542041424F564520),
  (0x1E69, 0x4C4154494E20534D414C4C204C45545445522053205749544820444F542042454C4F5720414E4420444F542041424F564520),
  (0x1E6A, 0x4C4154494E204341504954414C204C45545445522054205749544820444F542041424F564520),
  (0x1E6B, 0x4C4154494E20534D414C4C204C45545445522054205749544820444F542041424F564520),
  (0x1E6C, 0x4C4154494E204341504954414C204C45545445522054205749544820444F542042454C4F5720),
  (0x1E6D, 0x4C4154494E20534D414C4C204C45545445522054205749544820444F542042454C4F5720),
  (0x1E6E, 0x4C4154494E204341504954414C204C455454455220542057495448204C494E452042454C4F5720),
  (0x1E6F, 0x4C4154494E20534D414C4C204C455454455220542057495448204C494E452042454C4F5720),
  (0x1E70, 0x4C4154494E204341504954414C204C4554544552205420574954482043495243554D464C45582042454C4F5720),
  (0x1E71, 0x4C4154494E20534D414C4C204C4554544552205420574954482043495243554D464C45582042454C4F5720),
  (0x1E72, 0x4C4154494E204341504954414C204C455454455220552057495448204449414552455349532042454C4F5720),
  (0x1E73, 0x4C4154494E20534D414C4C204C455454455220552057495448204449414552455349532042454C4F5720),
  (0x1E74, 0x4C4154494E204341504954414C204C4554544552205520574954482054494C44452042454C4F5720),
  (0x1E75, 0x4C4154494E20534D414C4C204C4554544552205520574954482054494C44452042454C4F5720),
  (0x1E76, 0x4C4154494E204341504954414C204C4554544552205520574954482043495243554D464C45582042454C4F5720),
  (0x1E77, 0x4C4154494E20534D414C4C204C4554544552205520574954482043495243554D464C45582042454C4F5720),
  (0x1E78, 0x4C4154494E204341504954414C204C4554544552205520574954482054494C444520414E4420414355544520),
  (0x1E79, 0x4C4154494E20534D414C4C204C4554544552205520574954482054494C444520414E4420414355544520),
  (0x1E7A, 0x4C4154494E204341504954414C204C455454455220552057495448204D4143524F4E20414E442044494145524553495320),
  (0x1E7B, 0x4C4154494E20534D414C4C204C455454455220552057495448204D4143524F4E20414E442044494145524553495320),
  (0x1E7C, 0x4C4154494E204341504954414C204C4554544552205620574954482054494C444520),
  (0x1E7D, 0x4C4154494E20534D414C4C204C4554544552205620574954482054494C444520),
  (0x1E7E, 0x4C4154494E204341504954414C204C45545445522056205749544820444F542042454C4F5720),
  (0x1E7F, 0x4C4154494E20534D414C4C204C45545445522056205749544820444F542042454C4F5720),
  (0x1E80, 0x4C4154494E204341504954414C204C45545445522057205749544820475241564520),
  (0x1E81, 0x4C4154494E20534D414C4C204C45545445522057205749544820475241564520),
  (0x1E82, 0x4C4154494E204341504954414C204C45545445522057205749544820414355544520),
  (0x1E83, 0x4C4154494E20534D414C4C204C45545445522057205749544820414355544520),
  (0x1E84, 0x4C4154494E204341504954414C204C4554544552205720574954482044494145524553495320),
  (0x1E85, 0x4C4154494E20534D414C4C204C4554544552205720574954482044494145524553495320),
  (0x1E86, 0x4C4154494E204341504954414C204C45545445522057205749544820444F542041424F564520),
  (0x1E87, 0x4C4154494E20534D414C4C204C45545445522057205749544820444F542041424F564520),
  (0x1E88, 0x4C4154494E204341504954414C204C45545445522057205749544820444F542042454C4F5720),
  (0x1E89, 0x4C4154494E20534D414C4C204C45545445522057205749544820444F542042454C4F5720),
  (0x1E8A, 0x4C4154494E204341504954414C204C45545445522058205749544820444F542041424F564520),
  (0x1E8B, 0x4C4154494E20534D414C4C204C45545445522058205749544820444F542041424F564520),
  (0x1E8C, 0x4C4154494E204341504954414C204C4554544552205820574954482044494145524553495320),
  (0x1E8D, 0x4C4154494E20534D414C4C204C4554544552205820574954482044494145524553495320),
  (0x1E8E, 0x4C4154494E204341504954414C204C45545445522059205749544820444F542041424F564520),
  (0x1E8F, 0x4C4154494E20534D414C4C204C45545445522059205749544820444F542041424F564520),
  (0x1E90, 0x4C4154494E204341504954414C204C4554544552205A20574954482043495243554D464C455820),
  (0x1E91, 0x4C4154494E20534D414C4C204C4554544552205A20574954482043495243554D464C455820),
  (0x1E92, 0x4C4154494E204341504954414C204C4554544552205A205749544820444F542042454C4F5720),
  (0x1E93, 0x4C4154494E20534D414C4C204C4554544552205A205749544820444F542042454C4F5720),
  (0x1E94, 0x4C4154494E204341504954414C204C4554544552205A2057495448204C494E452042454C4F5720),
  (0x1E95, 0x4C4154494E20534D414C4C204C4554544552205A2057495448204C494E452042454C4F5720),
  (0x1E96, 0x4C4154494E20534D414C4C204C455454455220482057495448204C494E452042454C4F5720),
  (0x1E97, 0x4C4154494E20534D414C4C204C4554544552205420574954482044494145524553495320),
  (0x1E98, 0x4C4154494E20534D414C4C204C4554544552205720574954482052494E472041424F564520),
  (0x1E99, 0x4C4154494E20534D414C4C204C4554544552205920574954482052494E472041424F564520)]
def names_106 : List (Nat × Nat) := [
  (0x1E9A, 0x4C4154494E20534D414C4C204C4554544552204120574954482052494748542048414C462052494E4720),
  (0x1E9B, 0x4C4154494E20534D414C4C204C4554544552204C4F4E472053205749544820444F542041424F564520),
  (0x1E9C, 0x4C4154494E20534D414C4C204C4554544552204C4F4E472053205749544820444941474F4E414C205354524F4B4520),
  (0x1E9D, 0x4C4154494E20534D414C4C204C4554544552204C4F4E47205320574954482048494748205354524F4B4520),
  (0x1E9E, 0x4C4154494E204341504954414C204C4554544552205348415250205320),
  (0x1E9F, 0x4C4154494E20534D414C4C204C45545445522044454C544120),
  (0x1EA0, 0x4C4154494E204341504954414C204C45545445522041205749544820444F542042454C4F5720),
  (0x1EA1, 0x4C4154494E20534D414C4C204C45545445522041205749544820444F542042454C4F5720),
  (0x1EA2, 0x4C4154494E204341504954414C204C45545445522041205749544820484F4F4B2041424F564520),
  (0x1EA3, 0x4C4154494E20534D414C4C204C45545445522041205749544820484F4F4B2041424F564520),
  (0x1EA4, 0x4C4154494E204341504954414C204C4554544552204120574954482043495243554D464C455820414E4420414355544520),
  (0x1EA5, 0x4C4154494E20534D414C4C204C4554544552204120574954482043495243554D464C455820414E4420414355544520),
  (0x1EA6, 0x4C4154494E204341504954414C204C4554544552204120574954482043495243554D464C455820414E4420475241564520),
  (0x1EA7, 0x4C4154494E20534D414C4C204C4554544552204120574954482043495243554D464C455820414E4420475241564520),
  (0x1EA8, 0x4C4154494E204341504954414C204C4554544552204120574954482043495243554D464C455820414E4420484F4F4B2041424F564520),
  (0x1EA9, 0x4C4154494E20534D414C4C204C4554544552204120574954482043495243554D464C455820414E4420484F4F4B2041424F564520),
  (0x1EAA, 0x4C4154494E204341504954414C204C4554544552204120574954482043495243554D464C455820414E442054494C444520),
  (0x1EAB, 0x4C4154494E20534D414C4C204C4554544552204120574954482043495243554D464C455820414E442054494C444520),
  (0x1EAC, 0x4C4154494E204341504954414C204C4554544552204120574954482043495243554D464C455820414E4420444F542042454C4F5720),
  (0x1EAD, 0x4C4154494E20534D414C4C204C4554544552204120574954482043495243554D464C455820414E4420444F542042454C4F5720),
  (0x1EAE, 0x4C4154494E204341504954414C204C45545445522041205749544820425245564520414E4420414355544520),
  (0x1EAF, 0x4C4154494E20534D414C4C204C45545445522041205749544820425245564520414E4420414355544520),
  (0x1EB0, 0x4C4154494E204341504954414C204C45545445522041205749544820425245564520414E4420475241564520),
  (0x1EB1, 0x4C4154494E20534D414C4C204C45545445522041205749544820425245564520414E4420475241564520),
  (0x1EB2, 0x4C4154494E204341504954414C204C45545445522041205749544820425245564520414E4420484F4F4B2041424F564520),
  (0x1EB3, 0x4C4154494E20534D414C4C204C45545445522041205749544820425245564520414E4420484F4F4B2041424F564520),
  (0x1EB4, 0x4C4154494E204341504954414C204C45545445522041205749544820425245564520414E442054494C444520),
  (0x1EB5, 0x4C4154494E20534D414C4C204C45545445522041205749544820425245564520414E442054494C444520),
  (0x1EB6, 0x4C4154494E204341504954414C204C45545445522041205749544820425245564520414E4420444F542042454C4F5720),
  (0x1EB7, 0x4C4154494E20534D414C4C204C45545445522041205749544820425245564520414E4420444F542042454C4F5720),
  (0x1EB8, 0x4C4154494E204341504954414C204C45545445522045205749544820444F542042454C4F5720),
  (0x1EB9, 0x4C4154494E20534D414C4C204C45545445522045205749544820444F542042454C4F5720),
  (0x1EBA, 0x4C4154494E204341504954414C204C45545445522045205749544820484F4F4B2041424F564520),
  (0x1EBB, 0x4C4154494E20534D414C4C204C45545445522045205749544820484F4F4B2041424F564520),
  (0x1EBC, 0x4C4154494E204341504954414C204C4554544552204520574954482054494C444520),
  (0x1EBD, 0x4C4154494E20534D414C4C204C4554544552204520574954482054494C444520),
  (0x1EBE, 0x4C4154494E204341504954414C204C4554544552204520574954482043495243554D464C455820414E4420414355544520),
  (0x1EBF, 0x4C4154494E20534D414C4C204C4554544552204520574954482043495243554D464C455820414E4420414355544520),
  (0x1EC0, 0x4C4154494E204341504954414C204C4554544552204520574954482043495243554D464C455820414E4420475241564520),
  (0x1EC1, 0x4C4154494E20534D414C4C204C4554544552204520574954482043495243554D464C455820414E4420475241564520),
  (0x1EC2, 0x4C4154494E204341504954414C204C4554544552204520574954482043495243554D464C455820414E4420484F4F4B2041424F564520),
  (0x1EC3, 0x4C4154494E20534D414C4C204C4554544552204520574954482043495243554D464C455820414E4420484F4F4B2041424F564520),
  (0x1EC4, 0x4C4154494E204341504954414C204C4554544552204520574954482043495243554D464C455820414E442054494C444520),
  (0x1EC5, 0x4C4154494E20534D414C4C204C4554544552204520574954482043495243554D464C455820414E442054494C444520),
  (0x1EC6, 0x4C4154494E204341504954414C204C4554544552204520574954482043495243554D464C455820414E4420444F542042454C4F5720),
  (0x1EC7, 0x4C4154494E20534D414C4C204C4554544552204520574954482043495243554D464C455820414E4420444F542042454C4F5720),
  (0x1EC8, 0x4C4154494E204341504954414C204C45545445522049205749544820484F4F4B2041424F564520),
  (0x1EC9, 0x4C4154494E20534D414C4C204C45545445522049205749544820484F4F4B2041424F564520),
  (0x1ECA, 0x4C4154494E204341504954414C204C45545445522049205749544820444F542042454C4F5720),
  (0x1ECB, 0x4C4154494E20534D414C4C204C45545445522049205749544820444F542042454C4F5720),
  (0x1ECC, 0x4C4154494E204341504954414C204C4554544552204F205749544820444F542042454C4F5720),
  (0x1ECD, 0x4C4154494E20534D414C4C204C4554544552204F205749544820444F542042454C4F5720),
  (0x1ECE, 0x4C4154494E204341504954414C204C4554544552204F205749544820484F4F4B2041424F564520),
  (0x1ECF, 0x4C4154494E20534D414C4C204C4554544552204F205749544820484F4F4B2041424F564520),
  (0x1ED0, 0x4C4154494E204341504954414C204C4554544552204F20574954482043495243554D464C455820414E4420414355544520),
  (0x1ED1, 0x4C4154494E20534D414C4C204C4554544552204F20574954482043495243554D464C455820414E4420414355544520),
  (0x1ED2, 0x4C4154494E204341504954414C204C4554544552204F20574954482043495243554D464C455820414E4420475241564520),
  (0x1ED3, 0x4C4154494E20534D414C4C204C4554544552204F20574954482043495243554D464C455820414E4420475241564520),
  (0x1ED4, 0x4C4154494E204341504954414C204C4554544552204F20574954482043495243554D464C455820414E4420484F4F4B2041424F564520),
  (0x1ED5, 0x4C4154494E20534D414C4C204C4554544552204F20574954482043495243554D464C455820414E4420484F4F4B2041424F564520),
  (0x1ED6, 0x4C4154494E204341504954414C204C4554544552204F20574954482043495243554D464C455820414E442054494C444520),
  (0x1ED7, 0x4C4154494E20534D414C4C204C4554544552204F20574954482043495243554D464C455820414E442054494C444520),
  (0x1ED8, 0x4C4154494E204341504954414C204C4554544552204F20574954482043495243554D464C455820414E4420444F542042454C4F5720),
  (0x1ED9, 0x4C4154494E20534D414C4C204C4554544552204F20574954482043495243554D464C455820414E4420444F542042454C4F5720)]
def names_107 : List (Nat × Nat) := [
  (0x1EDA, 0x4C4154494E204341504954414C204C4554544552204F205749544820484F524E20414E4420414355544520),
  (0x1EDB, 0x4C4154494E20534D414C4C204C4554544552204F205749544820484F524E20414E4420414355544520),
  (0x1EDC, 0x4C4154494E204341504954414C204C4554544552204F205749544820484F524E20414E4420475241564520),
  (0x1EDD, 0x4C4154494E20534D414C4C204C4554544552204F205749544820484F524E20414E4420475241564520),
  (0x1EDE, 0x4C4154494E204341504954414C204C4554544552204F205749544820484F524E20414E4420484F4F4B2041424F564520),
  (0x1EDF, 0x4C4154494E20534D414C4C204C4554544552204F205749544820484F524E20414E4420484F4F4B2041424F564520),
  (0x1EE0, 0x4C4154494E204341504954414C204C4554544552204F205749544820484F524E20414E442054494C444520),
  (0x1EE1, 0x4C4154494E20534D414C4C204C4554544552204F205749544820484F524E20414E442054494C444520),
  (0x1EE2, 0x4C4154494E204341504954414C204C4554544552204F205749544820484F524E20414E4420444F542042454C4F5720),
  (0x1EE3, 0x4C4154494E20534D414C4C204C4554544552204F205749544820484F524E20414E4420444F542042454C4F5720),
  (0x1EE4, 0x4C4154494E204341504954414C204C45545445522055205749544820444F542042454C4F5720),
  (0x1EE5, 0x4C4154494E20534D414C4C204C45545445522055205749544820444F542042454C4F5720),
  (0x1EE6, 0x4C4154494E204341504954414C204C45545445522055205749544820484F4F4B2041424F564520),
  (0x1EE7, 0x4C4154494E20534D414C4C204C45545445522055205749544820484F4F4B2041424F564520),
  (0x1EE8, 0x4C4154494E204341504954414C204C45545445522055205749544820484F524E20414E4420414355544520),
  (0x1EE9, 0x4C4154494E20534D414C4C204C45545445522055205749544820484F524E20414E4420414355544520),
  (0x1EEA, 0x4C4154494E204341504954414C204C45545445522055205749544820484F524E20414E4420475241564520),
  (0x1EEB, 0x4C4154494E20534D414C4C204C45545445522055205749544820484F524E20414E4420475241564520),
  (0x1EEC, 0x4C4154494E204341504954414C204C45545445522055205749544820484F524E20414E4420484F4F4B2041424F564520),
  (0x1EED, 0x4C4154494E20534D414C4C204C45545445522055205749544820484F524E20414E4420484F4F4B2041424F564520),
  (0x1EEE, 0x4C4154494E204341504954414C204C45545445522055205749544820484F524E20414E442054494C444520),
  (0x1EEF, 0x4C4154494E20534D414C4C204C45545445522055205749544820484F524E20414E442054494C444520),
  (0x1EF0, 0x4C4154494E204341504954414C204C45545445522055205749544820484F524E20414E4420444F542042454C4F5720),
  (0x1EF1, 0x4C4154494E20534D414C4C204C45545445522055205749544820484F524E20414E4420444F542042454C4F5720),
  (0x1EF2, 0x4C4154494E204341504954414C204C45545445522059205749544820475241564520),
  (0x1EF3, 0x4C4154494E20534D414C4C204C45545445522059205749544820475241564520),
  (0x1EF4, 0x4C4154494E204341504954414C204C45545445522059205749544820444F542042454C4F5720),
  (0x1EF5, 0x4C4154494E20534D414C4C204C45545445522059205749544820444F542042454C4F5720),
  (0x1EF6, 0x4C4154494E204341504954414C204C45545445522059205749544820484F4F4B2041424F564520),
  (0x1EF7, 0x4C4154494E20534D414C4C204C45545445522059205749544820484F4F4B2041424F564520),
  (0x1EF8, 0x4C4154494E204341504954414C204C4554544552205920574954482054494C444520),
  (0x1EF9, 0x4C4154494E20534D414C4C204C4554544552205920574954482054494C444520),
  (0x1EFA, 0x4C4154494E204341504954414C204C4554544552204D4944444C452D57454C5348204C4C20),
  (0x1EFB, 0x4C4154494E20534D414C4C204C4554544552204D4944444C452D57454C5348204C4C20),
  (0x1EFC, 0x4C4154494E204341504954414C204C4554544552204D4944444C452D57454C5348205620),
  (0x1EFD, 0x4C4154494E20534D414C4C204C4554544552204D4944444C452D57454C5348205620),
  (0x1EFE, 0x4C4154494E204341504954414C204C455454455220592057495448204C4F4F5020),
  (0x1EFF, 0x4C4154494E20534D414C4C204C455454455220592057495448204C4F4F5020),
  (0x1F00, 0x475245454B20534D414C4C204C455454455220414C5048412057495448205053494C4920),
  (0x1F01, 0x475245454B20534D414C4C204C455454455220414C504841205749544820444153494120),
  (0x1F02, 0x475245454B20534D414C4C204C455454455220414C5048412057495448205053494C4920414E4420564152494120),
  (0x1F03, 0x475245454B20534D414C4C204C455454455220414C504841205749544820444153494120414E4420564152494120),
  (0x1F04, 0x475245454B20534D414C4C204C455454455220414C5048412057495448205053494C4920414E44204F58494120),
  (0x1F05, 0x475245454B20534D414C4C204C455454455220414C504841205749544820444153494120414E44204F58494120),
  (0x1F06, 0x475245454B20534D414C4C204C455454455220414C5048412057495448205053494C4920414E44205045524953504F4D454E4920),
  (0x1F07, 0x475245454B20534D414C4C204C455454455220414C504841205749544820444153494120414E44205045524953504F4D454E4920),
  (0x1F08, 0x475245454B204341504954414C204C455454455220414C5048412057495448205053494C4920),
  (0x1F09, 0x475245454B204341504954414C204C455454455220414C504841205749544820444153494120),
  (0x1F0A, 0x475245454B204341504954414C204C455454455220414C5048412057495448205053494C4920414E4420564152494120),
  (0x1F0B, 0x475245454B204341504954414C204C455454455220414C504841205749544820444153494120414E4420564152494120),
  (0x1F0C, 0x475245454B204341504954414C204C455454455220414C5048412057495448205053494C4920414E44204F58494120),
  (0x1F0D, 0x475245454B204341504954414C204C455454455220414C504841205749544820444153494120414E44204F58494120),
  (0x1F0E, 0x475245454B204341504954414C204C455454455220414C5048412057495448205053494C4920414E44205045524953504F4D454E4920),
  (0x1F0F, 0x475245454B204341504954414C204C455454455220414C504841205749544820444153494120414E44205045524953504F4D454E4920),
  (0x1F10, 0x475245454B20534D414C4C204C455454455220455053494C4F4E2057495448205053494C4920),
  (0x1F11, 0x475245454B20534D414C4C204C455454455220455053494C4F4E205749544820444153494120),
  (0x1F12, 0x475245454B20534D414C4C204C455454455220455053494C4F4E2057495448205053494C4920414E4420564152494120),
  (0x1F13, 0x475245454B20534D414C4C204C455454455220455053494C4F4E205749544820444153494120414E4420564152494120),
  (0x1F14, 0x475245454B20534D414C4C204C455454455220455053494C4F4E2057495448205053494C4920414E44204F58494120),
  (0x1F15, 0x475245454B20534D414C4C204C455454455220455053494C4F4E205749544820444153494120414E44204F58494120),
  (0x1F18, 0x475245454B204341504954414C204C455454455220455053494C4F4E2057495448205053494C4920),
  (0x1F19, 0x475245454B204341504954414C204C455454455220455053494C4F4E205749544820444153494120),
  (0x1F1A, 0x475245454B204341504954414C204C455454455220455053494C4F4E2057495448205053494C4920414E4420564152494120),
  (0x1F1B, 0x475245454B204341504954414C204C455454455220455053494C4F4E205749544820444153494120414E4420564152494120)]
def names_108 : List (Nat × Nat) := [
  (0x1F1C, 0x475245454B204341504954414C204C455454455220455053494C4F4E2057495448205053494C4920414E44204F58494120),
  (0x1F1D, 0x475245454B204341504954414C204C455454455220455053494C4F4E205749544820444153494120414E44204F58494120),
  (0x1F20, 0x475245454B20534D414C4C204C4554544552204554412057495448205053494C4920),
  (0x1F21, 0x475245454B20534D414C4C204C455454455220455441205749544820444153494120),
  (0x1F22, 0x475245454B20534D414C4C204C4554544552204554412057495448205053494C4920414E4420564152494120),
  (0x1F23, 0x475245454B20534D414C4C204C455454455220455441205749544820444153494120414E4420564152494120),
  (0x1F24, 0x475245454B20534D414C4C204C4554544552204554412057495448205053494C4920414E44204F58494120),
  (0x1F25, 0x475245454B20534D414C4C204C455454455220455441205749544820444153494120414E44204F58494120),
  (0x1F26, 0x475245454B20534D414C4C204C4554544552204554412057495448205053494C4920414E44205045524953504F4D454E4920),
  (0x1F27, 0x475245454B20534D414C4C204C455454455220455441205749544820444153494120414E44205045524953504F4D454E4920),
  (0x1F28, 0x475245454B204341504954414C204C4554544552204554412057495448205053494C4920),
  (0x1F29, 0x475245454B204341504954414C204C455454455220455441205749544820444153494120),
  (0x1F2A, 0x475245454B204341504954414C204C4554544552204554412057495448205053494C4920414E4420564152494120),
  (0x1F2B, 0x475245454B204341504954414C204C455454455220455441205749544820444153494120414E4420564152494120),
  (0x1F2C, 0x475245454B204341504954414C204C4554544552204554412057495448205053494C4920414E44204F58494120),
  (0x1F2D, 0x475245454B204341504954414C204C455454455220455441205749544820444153494120414E44204F58494120),
  (0x1F2E, 0x475245454B204341504954414C204C4554544552204554412057495448205053494C4920414E44205045524953504F4D454E4920),
  (0x1F2F, 0x475245454B204341504954414C204C455454455220455441205749544820444153494120414E44205045524953504F4D454E4920),
  (0x1F30, 0x475245454B20534D414C4C204C455454455220494F54412057495448205053494C4920),
  (0x1F31, 0x475245454B20534D414C4C204C455454455220494F5441205749544820444153494120),
  (0x1F32, 0x475245454B20534D414C4C204C455454455220494F54412057495448205053494C4920414E4420564152494120),
  (0x1F33, 0x475245454B20534D414C4C204C455454455220494F5441205749544820444153494120414E4420564152494120),
  (0x1F34, 0x475245454B20534D414C4C204C455454455220494F54412057495448205053494C4920414E44204F58494120),
  (0x1F35, 0x475245454B20534D414C4C204C455454455220494F5441205749544820444153494120414E44204F58494120),
  (0x1F36, 0x475245454B20534D414C4C204C455454455220494F54412057495448205053494C4920414E44205045524953504F4D454E4920),
  (0x1F37, 0x475245454B20534D414C4C204C455454455220494F5441205749544820444153494120414E44205045524953504F4D454E4920),
  (0x1F38, 0x475245454B204341504954414C204C455454455220494F54412057495448205053494C4920),
  (0x1F39, 0x475245454B204341504954414C204C455454455220494F5441205749544820444153494120),
  (0x1F3A, 0x475245454B204341504954414C204C455454455220494F54412057495448205053494C4920414E4420564152494120),
  (0x1F3B, 0x475245454B204341504954414C204C455454455220494F5441205749544820444153494120414E4420564152494120),
  (0x1F3C, 0x475245454B204341504954414C204C455454455220494F54412057495448205053494C4920414E44204F58494120),
  (0x1F3D, 0x475245454B204341504954414C204C455454455220494F5441205749544820444153494120414E44204F58494120),
  (0x1F3E, 0x475245454B204341504954414C204C455454455220494F54412057495448205053494C4920414E44205045524953504F4D454E4920),
  (0x1F3F, 0x475245454B204341504954414C204C455454455220494F5441205749544820444153494120414E44205045524953504F4D454E4920),
  (0x1F40, 0x475245454B20534D414C4C204C4554544552204F4D4943524F4E2057495448205053494C4920),
  (0x1F41, 0x475245454B20534D414C4C204C4554544552204F4D4943524F4E205749544820444153494120),
  (0x1F42, 0x475245454B20534D414C4C204C4554544552204F4D4943524F4E2057495448205053494C4920414E4420564152494120),
  (0x1F43, 0x475245454B20534D414C4C204C4554544552204F4D4943524F4E205749544820444153494120414E4420564152494120),
  (0x1F44, 0x475245454B20534D414C4C204C4554544552204F4D4943524F4E2057495448205053494C4920414E44204F58494120),
  (0x1F45, 0x475245454B20534D414C4C204C4554544552204F4D4943524F4E205749544820444153494120414E44204F58494120),
  (0x1F48, 0x475245454B204341504954414C204C4554544552204F4D4943524F4E2057495448205053494C4920),
  (0x1F49, 0x475245454B204341504954414C204C4554544552204F4D4943524F4E205749544820444153494120),
  (0x1F4A, 0x475245454B204341504954414C204C4554544552204F4D4943524F4E2057495448205053494C4920414E4420564152494120),
  (0x1F4B, 0x475245454B204341504954414C204C4554544552204F4D4943524F4E205749544820444153494120414E4420564152494120),
  (0x1F4C, 0x475245454B204341504954414C204C4554544552204F4D4943524F4E2057495448205053494C4920414E44204F58494120),
  (0x1F4D, 0x475245454B204341504954414C204C4554544552204F4D4943524F4E205749544820444153494120414E44204F58494120),
  (0x1F50, 0x475245454B20534D414C4C204C455454455220555053494C4F4E2057495448205053494C4920),
  (0x1F51, 0x475245454B20534D414C4C204C455454455220555053494C4F4E205749544820444153494120),
  (0x1F52, 0x475245454B20534D414C4C204C455454455220555053494C4F4E2057495448205053494C4920414E4420564152494120),
  (0x1F53, 0x475245454B20534D414C4C204C455454455220555053494C4F4E205749544820444153494120414E4420564152494120),
  (0x1F54, 0x475245454B20534D414C4C204C455454455220555053494C4F4E2057495448205053494C4920414E44204F58494120),
  (0x1F55, 0x475245454B20534D414C4C204C455454455220555053494C4F4E205749544820444153494120414E44204F58494120),
  (0x1F56, 0x475245454B20534D414C4C204C455454455220555053494C4F4E2057495448205053494C4920414E44205045524953504F4D454E4920),
  (0x1F57, 0x475245454B20534D414C4C204C455454455220555053494C4F4E205749544820444153494120414E44205045524953504F4D454E4920),
  (0x1F59, 0x475245454B204341504954414C204C455454455220555053494C4F4E205749544820444153494120),
  (0x1F5B, 0x475245454B204341504954414C204C455454455220555053494C4F4E205749544820444153494120414E4420564152494120),
  (0x1F5D, 0x475245454B204341504954414C204C455454455220555053494C4F4E205749544820444153494120414E44204F58494120),
  (0x1F5F, 0x475245454B204341504954414C204C455454455220555053494C4F4E205749544820444153494120414E44205045524953504F4D454E4920),
  (0x1F60, 0x475245454B20534D414C4C204C4554544552204F4D4547412057495448205053494C4920),
  (0x1F61, 0x475245454B20534D414C4C204C4554544552204F4D454741205749544820444153494120),
  (0x1F62, 0x475245454B20534D414C4C204C4554544552204F4D4547412057495448205053494C4920414E4420564152494120),
  (0x1F63, 0x475245454B20534D414C4C204C4554544552204F4D454741205749544820444153494120414E4420564152494120),
  (0x1F64, 0x475245454B20534D414C4C204C4554544552204F4D4547412057495448205053494C4920414E44204F58494120),
  (0x1F65, 0x475245454B20534D414C4C204C4554544552204F4D454741205749544820444153494120414E44204F58494120)]
def names_109 : List (Nat × Nat) := [
  (0x1F66, 0x475245454B20534D414C4C204C4554544552204F4D4547412057495448205053494C4920414E44205045524953504F4D454E4920),
  (0x1F67, 0x475245454B20534D414C4C204C4554544552204F4D454741205749544820444153494120414E44205045524953504F4D454E4920),
  (0x1F68, 0x475245454B204341504954414C204C4554544552204F4D4547412057495448205053494C4920),
  (0x1F69, 0x475245454B204341504954414C204C4554544552204F4D454741205749544820444153494120),
  (0x1F6A, 0x475245454B204341504954414C204C4554544552204F4D4547412057495448205053494C4920414E4420564152494120),
  (0x1F6B, 0x475245454B204341504954414C204C4554544552204F4D454741205749544820444153494120414E4420564152494120),
  (0x1F6C, 0x475245454B204341504954414C204C4554544552204F4D4547412057495448205053494C4920414E44204F58494120),
  (0x1F6D, 0x475245454B204341504954414C204C4554544552204F4D454741205749544820444153494120414E44204F58494120),
  (0x1F6E, 0x475245454B204341504954414C204C4554544552204F4D4547412057495448205053494C4920414E44205045524953504F4D454E4920),
  (0x1F6F, 0x475245454B204341504954414C204C4554544552204F4D454741205749544820444153494120414E44205045524953504F4D454E4920),
  (0x1F70, 0x475245454B20534D414C4C204C455454455220414C504841205749544820564152494120),
  (0x1F71, 0x475245454B20534D414C4C204C455454455220414C5048412057495448204F58494120),
  (0x1F72, 0x475245454B20534D414C4C204C455454455220455053494C4F4E205749544820564152494120),
  (0x1F73, 0x475245454B20534D414C4C204C455454455220455053494C4F4E2057495448204F58494120),
  (0x1F74, 0x475245454B20534D414C4C204C455454455220455441205749544820564152494120),
  (0x1F75, 0x475245454B20534D414C4C204C4554544552204554412057495448204F58494120),
  (0x1F76, 0x475245454B20534D414C4C204C455454455220494F5441205749544820564152494120),
  (0x1F77, 0x475245454B20534D414C4C204C455454455220494F54412057495448204F58494120),
  (0x1F78, 0x475245454B20534D414C4C204C4554544552204F4D4943524F4E205749544820564152494120),
  (0x1F79, 0x475245454B20534D414C4C204C4554544552204F4D4943524F4E2057495448204F58494120),
  (0x1F7A, 0x475245454B20534D414C4C204C455454455220555053494C4F4E205749544820564152494120),
  (0x1F7B, 0x475245454B20534D414C4C204C455454455220555053494C4F4E2057495448204F58494120),
  (0x1F7C, 0x475245454B20534D414C4C204C4554544552204F4D454741205749544820564152494120),
  (0x1F7D, 0x475245454B20534D414C4C204C4554544552204F4D4547412057495448204F58494120),
  (0x1F80, 0x475245454B20534D414C4C204C455454455220414C5048412057495448205053494C4920414E442059504F47454752414D4D454E4920),
  (0x1F81, 0x475245454B20534D414C4C204C455454455220414C504841205749544820444153494120414E442059504F47454752414D4D454E4920),
  (0x1F82, 0x475245454B20534D414C4C204C455454455220414C5048412057495448205053494C4920414E4420564152494120414E442059504F47454752414D4D454E4920),
  (0x1F83, 0x475245454B20534D414C4C204C455454455220414C504841205749544820444153494120414E4420564152494120414E442059504F47454752414D4D454E4920),
  (0x1F84, 0x475245454B20534D414C4C204C455454455220414C5048412057495448205053494C4920414E44204F58494120414E442059504F47454752414D4D454E4920),
  (0x1F85, 0x475245454B20534D414C4C204C455454455220414C504841205749544820444153494120414E44204F58494120414E442059504F47454752414D4D454E4920),
  (0x1F86, 0x475245454B20534D414C4C204C455454455220414C5048412057495448205053494C4920414E44205045524953504F4D454E4920414E442059504F47454752414D4D454E4920),
  (0x1F87, 0x475245454B20534D414C4C204C455454455220414C504841205749544820444153494120414E44205045524953504F4D454E4920414E442059504F47454752414D4D454E4920),
  (0x1F88, 0x475245454B204341504954414C204C455454455220414C5048412057495448205053494C4920414E442050524F5347454752414D4D454E4920),
  (0x1F89, 0x475245454B204341504954414C204C455454455220414C504841205749544820444153494120414E442050524F5347454752414D4D454E4920),
  (0x1F8A, 0x475245454B204341504954414C204C455454455220414C5048412057495448205053494C4920414E4420564152494120414E442050524F5347454752414D4D454E4920),
  (0x1F8B, 0x475245454B204341504954414C204C455454455220414C504841205749544820444153494120414E4420564152494120414E442050524F5347454752414D4D454E4920),
  (0x1F8C, 0x475245454B204341504954414C204C455454455220414C5048412057495448205053494C4920414E44204F58494120414E442050524F5347454752414D4D454E4920),
  (0x1F8D, 0x475245454B204341504954414C204C455454455220414C504841205749544820444153494120414E44204F58494120414E442050524F5347454752414D4D454E4920),
  (0x1F8E, 0x475245454B204341504954414C204C455454455220414C5048412057495448205053494C4920414E44205045524953504F4D454E4920414E442050524F5347454752414D4D454E4920),
  (0x1F8F, 0x475245454B204341504954414C204C455454455220414C504841205749544820444153494120414E44205045524953504F4D454E4920414E442050524F5347454752414D4D454E4920),
  (0x1F90, 0x475245454B20534D414C4C204C4554544552204554412057495448205053494C4920414E442059504F47454752414D4D454E4920),
  (0x1F91, 0x475245454B20534D414C4C204C455454455220455441205749544820444153494120414E442059504F47454752414D4D454E4920),
  (0x1F92, 0x475245454B20534D414C4C204C4554544552204554412057495448205053494C4920414E4420564152494120414E442059504F47454752414D4D454E4920),
  (0x1F93, 0x475245454B20534D414C4C204C455454455220455441205749544820444153494120414E4420564152494120414E442059504F47454752414D4D454E4920),
  (0x1F94, 0x475245454B20534D414C4C204C4554544552204554412057495448205053494C4920414E44204F58494120414E442059504F47454752414D4D454E4920),
  (0x1F95, 0x475245454B20534D414C4C204C455454455220455441205749544820444153494120414E44204F58494120414E442059504F47454752414D4D454E4920),
  (0x1F96, 0x475245454B20534D414C4C204C4554544552204554412057495448205053494C4920414E44205045524953504F4D454E4920414E442059504F47454752414D4D454E4920),
  (0x1F97, 0x475245454B20534D414C4C204C455454455220455441205749544820444153494120414E44205045524953504F4D454E4920414E442059504F47454752414D4D454E4920),
  (0x1F98, 0x475245454B204341504954414C204C4554544552204554412057495448205053494C4920414E442050524F5347454752414D4D454E4920),
  (0x1F99, 0x475245454B204341504954414C204C455454455220455441205749544820444153494120414E442050524F5347454752414D4D454E4920),
  (0x1F9A, 0x475245454B204341504954414C204C4554544552204554412057495448205053494C4920414E4420564152494120414E442050524F5347454752414D4D454E4920),
  (0x1F9B, 0x475245454B204341504954414C204C455454455220455441205749544820444153494120414E4420564152494120414E442050524F5347454752414D4D454E4920),
  (0x1F9C, 0x475245454B204341504954414C204C4554544552204554412057495448205053494C4920414E44204F58494120414E442050524F5347454752414D4D454E4920),
  (0x1F9D, 0x475245454B204341504954414C204C455454455220455441205749544820444153494120414E44204F58494120414E442050524F5347454752414D4D454E4920),
  (0x1F9E, 0x475245454B204341504954414C204C4554544552204554412057495448205053494C4920414E44205045524953504F4D454E4920414E442050524F5347454752414D4D454E4920),
  (0x1F9F, 0x475245454B204341504954414C204C455454455220455441205749544820444153494120414E44205045524953504F4D454E4920414E442050524F5347454752414D4D454E4920),
  (0x1FA0, 0x475245454B20534D414C4C204C4554544552204F4D4547412057495448205053494C4920414E442059504F47454752414D4D454E4920),
  (0x1FA1, 0x475245454B20534D414C4C204C4554544552204F4D454741205749544820444153494120414E442059504F47454752414D4D454E4920),
  (0x1FA2, 0x475245454B20534D414C4C204C4554544552204F4D4547412057495448205053494C4920414E4420564152494120414E442059504F47454752414D4D454E4920),
  (0x1FA3, 0x475245454B20534D414C4C204C4554544552204F4D454741205749544820444153494120414E4420564152494120414E442059504F47454752414D4D454E4920),
  (0x1FA4, 0x475245454B20534D414C4C204C4554544552204F4D4547412057495448205053494C4920414E44204F58494120414E442059504F47454752414D4D454E4920),
  (0x1FA5, 0x475245454B20534D414C4C204C4554544552204F4D454741205749544820444153494120414E44204F58494120414E442059504F47454752414D4D454E4920),
  (0x1FA6, 0x475245454B20534D414C4C204C4554544552204F4D4547412057495448205053494C4920414E44205045524953504F4D454E4920414E442059504F47454752414D4D454E4920),
  (0x1FA7, 0x475245454B20534D414C4C204C4554544552204F4D454741205749544820444153494120414E44205045524953504F4D454E4920414E442059504F47454752414D4D454E4920)]
def names_110 : List (Nat × Nat) := [
  (0x1FA8, 0x475245454B204341504954414C204C4554544552204F4D4547412057495448205053494C4920414E442050524F5347454752414D4D454E4920),
  (0x1FA9, 0x475245454B204341504954414C204C4554544552204F4D454741205749544820444153494120414E442050524F5347454752414D4D454E4920),
  (0x1FAA, 0x475245454B204341504954414C204C4554544552204F4D4547412057495448205053494C4920414E4420564152494120414E442050524F5347454752414D4D454E4920),
  (0x1FAB, 0x475245454B204341504954414C204C4554544552204F4D454741205749544820444153494120414E4420564152494120414E442050524F5347454752414D4D454E4920),
  (0x1FAC, 0x475245454B204341504954414C204C4554544552204F4D4547412057495448205053494C4920414E44204F58494120414E442050524F5347454752414D4D454E4920),
  (0x1FAD, 0x475245454B204341504954414C204C4554544552204F4D454741205749544820444153494120414E44204F58494120414E442050524F5347454752414D4D454E4920),
  (0x1FAE, 0x475245454B204341504954414C204C4554544552204F4D4547412057495448205053494C4920414E44205045524953504F4D454E4920414E442050524F5347454752414D4D454E4920),
  (0x1FAF, 0x475245454B204341504954414C204C4554544552204F4D454741205749544820444153494120414E44205045524953504F4D454E4920414E442050524F5347454752414D4D454E4920),
  (0x1FB0, 0x475245454B20534D414C4C204C455454455220414C50484120574954482056524143485920),
  (0x1FB1, 0x475245454B20534D414C4C204C455454455220414C5048412057495448204D4143524F4E20),
  (0x1FB2, 0x475245454B20534D414C4C204C455454455220414C504841205749544820564152494120414E442059504F47454752414D4D454E4920),
  (0x1FB3, 0x475245454B20534D414C4C204C455454455220414C50484120574954482059504F47454752414D4D454E4920),
  (0x1FB4, 0x475245454B20534D414C4C204C455454455220414C5048412057495448204F58494120414E442059504F47454752414D4D454E4920),
  (0x1FB6, 0x475245454B20534D414C4C204C455454455220414C5048412057495448205045524953504F4D454E4920),
  (0x1FB7, 0x475245454B20534D414C4C204C455454455220414C5048412057495448205045524953504F4D454E4920414E442059504F47454752414D4D454E4920),
  (0x1FB8, 0x475245454B204341504954414C204C455454455220414C50484120574954482056524143485920),
  (0x1FB9, 0x475245454B204341504954414C204C455454455220414C5048412057495448204D4143524F4E20),
  (0x1FBA, 0x475245454B204341504954414C204C455454455220414C504841205749544820564152494120),
  (0x1FBB, 0x475245454B204341504954414C204C455454455220414C5048412057495448204F58494120),
  (0x1FBC, 0x475245454B204341504954414C204C455454455220414C50484120574954482050524F5347454752414D4D454E4920),
  (0x1FBD, 0x475245454B204B4F524F4E495320),
  (0x1FBE, 0x475245454B2050524F5347454752414D4D454E4920),
  (0x1FBF, 0x475245454B205053494C4920),
  (0x1FC0, 0x475245454B205045524953504F4D454E4920),
  (0x1FC1, 0x475245454B204449414C5954494B4120414E44205045524953504F4D454E4920),
  (0x1FC2, 0x475245454B20534D414C4C204C455454455220455441205749544820564152494120414E442059504F47454752414D4D454E4920),
  (0x1FC3, 0x475245454B20534D414C4C204C45545445522045544120574954482059504F47454752414D4D454E4920),
  (0x1FC4, 0x475245454B20534D414C4C204C4554544552204554412057495448204F58494120414E442059504F47454752414D4D454E4920),
  (0x1FC6, 0x475245454B20534D414C4C204C4554544552204554412057495448205045524953504F4D454E4920),
  (0x1FC7, 0x475245454B20534D414C4C204C4554544552204554412057495448205045524953504F4D454E4920414E442059504F47454752414D4D454E4920),
  (0x1FC8, 0x475245454B204341504954414C204C455454455220455053494C4F4E205749544820564152494120),
  (0x1FC9, 0x475245454B204341504954414C204C455454455220455053494C4F4E2057495448204F58494120),
  (0x1FCA, 0x475245454B204341504954414C204C455454455220455441205749544820564152494120),
  (0x1FCB, 0x475245454B204341504954414C204C4554544552204554412057495448204F58494120),
  (0x1FCC, 0x475245454B204341504954414C204C45545445522045544120574954482050524F5347454752414D4D454E4920),
  (0x1FCD, 0x475245454B205053494C4920414E4420564152494120),
  (0x1FCE, 0x475245454B205053494C4920414E44204F58494120),
  (0x1FCF, 0x475245454B205053494C4920414E44205045524953504F4D454E4920),
  (0x1FD0, 0x475245454B20534D414C4C204C455454455220494F544120574954482056524143485920),
  (0x1FD1, 0x475245454B20534D414C4C204C455454455220494F54412057495448204D4143524F4E20),
  (0x1FD2, 0x475245454B20534D414C4C204C455454455220494F54412057495448204449414C5954494B4120414E4420564152494120),
  (0x1FD3, 0x475245454B20534D414C4C204C455454455220494F54412057495448204449414C5954494B4120414E44204F58494120),
  (0x1FD6, 0x475245454B20534D414C4C204C455454455220494F54412057495448205045524953504F4D454E4920),
  (0x1FD7, 0x475245454B20534D414C4C204C455454455220494F54412057495448204449414C5954494B4120414E44205045524953504F4D454E4920),
  (0x1FD8, 0x475245454B204341504954414C204C455454455220494F544120574954482056524143485920),
  (0x1FD9, 0x475245454B204341504954414C204C455454455220494F54412057495448204D4143524F4E20),
  (0x1FDA, 0x475245454B204341504954414C204C455454455220494F5441205749544820564152494120),
  (0x1FDB, 0x475245454B204341504954414C204C455454455220494F54412057495448204F58494120),
  (0x1FDD, 0x475245454B20444153494120414E4420564152494120),
  (0x1FDE, 0x475245454B20444153494120414E44204F58494120),
  (0x1FDF, 0x475245454B20444153494120414E44205045524953504F4D454E4920),
  (0x1FE0, 0x475245454B20534D414C4C204C455454455220555053494C4F4E20574954482056524143485920),
  (0x1FE1, 0x475245454B20534D414C4C204C455454455220555053494C4F4E2057495448204D4143524F4E20),
  (0x1FE2, 0x475245454B20534D414C4C204C455454455220555053494C4F4E2057495448204449414C5954494B4120414E4420564152494120),
  (0x1FE3, 0x475245454B20534D414C4C204C455454455220555053494C4F4E2057495448204449414C5954494B4120414E44204F58494120),
  (0x1FE4, 0x475245454B20534D414C4C204C45545445522052484F2057495448205053494C4920),
  (0x1FE5, 0x475245454B20534D414C4C204C45545445522052484F205749544820444153494120),
  (0x1FE6, 0x475245454B20534D414C4C204C455454455220555053494C4F4E2057495448205045524953504F4D454E4920),
  (0x1FE7, 0x475245454B20534D414C4C204C455454455220555053494C4F4E2057495448204449414C5954494B4120414E44205045524953504F4D454E4920),
  (0x1FE8, 0x475245454B204341504954414C204C455454455220555053494C4F4E20574954482056524143485920),
  (0x1FE9, 0x475245454B204341504954414C204C455454455220555053494C4F4E2057495448204D4143524F4E20),
  (0x1FEA, 0x475245454B204341504954414C204C455454455220555053494C4F4E205749544820564152494120),
  (0x1FEB, 0x475245454B204341504954414C204C455454455220555053494C4F4E2057495448204F58494120),
  (0x1FEC, 0x475245454B204341504954414C204C45545445522052484F205749544820444153494120)]
def names_111 : List (Nat × Nat) := [
  (0x1FED, 0x475245454B204449414C5954494B4120414E4420564152494120),
  (0x1FEE, 0x475245454B204449414C5954494B4120414E44204F58494120),
  (0x1FEF, 0x475245454B20564152494120),
  (0x1FF2, 0x475245454B20534D414C4C204C4554544552204F4D454741205749544820564152494120414E442059504F47454752414D4D454E4920),
  (0x1FF3, 0x475245454B20534D414C4C204C4554544552204F4D45474120574954482059504F47454752414D4D454E4920),
  (0x1FF4, 0x475245454B20534D414C4C204C4554544552204F4D4547412057495448204F58494120414E442059504F47454752414D4D454E4920),
  (0x1FF6, 0x475245454B20534D414C4C204C4554544552204F4D4547412057495448205045524953504F4D454E4920),
  (0x1FF7, 0x475245454B20534D414C4C204C4554544552204F4D4547412057495448205045524953504F4D454E4920414E442059504F47454752414D4D454E4920),
  (0x1FF8, 0x475245454B204341504954414C204C4554544552204F4D4943524F4E205749544820564152494120),
  (0x1FF9, 0x475245454B204341504954414C204C4554544552204F4D4943524F4E2057495448204F58494120),
  (0x1FFA, 0x475245454B204341504954414C204C4554544552204F4D454741205749544820564152494120),
  (0x1FFB, 0x475245454B204341504954414C204C4554544552204F4D4547412057495448204F58494120),
  (0x1FFC, 0x475245454B204341504954414C204C4554544552204F4D45474120574954482050524F5347454752414D4D454E4920),
  (0x1FFD, 0x475245454B204F58494120),
  (0x1FFE, 0x475245454B20444153494120),
  (0x2000, 0x454E205155414420),
  (0x2001, 0x454D205155414420),
  (0x2002, 0x454E20535041434520),
  (0x2003, 0x454D20535041434520),
  (0x2004, 0x54485245452D5045522D454D20535041434520),
  (0x2005, 0x464F55522D5045522D454D20535041434520),
  (0x2006, 0x5349582D5045522D454D20535041434520),
  (0x2007, 0x46494755524520535041434520),
  (0x2008, 0x50554E4354554154494F4E20535041434520),
  (0x2009, 0x5448494E20535041434520),
  (0x200A, 0x4841495220535041434520),
  (0x200B, 0x5A45524F20574944544820535041434520),
  (0x200C, 0x5A45524F205749445448204E4F4E2D4A4F494E455220),
  (0x200D, 0x5A45524F205749445448204A4F494E455220),
  (0x200E, 0x4C4546542D544F2D5249474854204D41524B20),
  (0x200F, 0x52494748542D544F2D4C454654204D41524B20),
  (0x2010, 0x48595048454E20),
  (0x2011, 0x4E4F4E2D425245414B494E472048595048454E20),
  (0x2012, 0x464947555245204441534820),
  (0x2013, 0x454E204441534820),
  (0x2014, 0x454D204441534820),
  (0x2015, 0x484F52495A4F4E54414C2042415220),
  (0x2016, 0x444F55424C4520564552544943414C204C494E4520),
  (0x2017, 0x444F55424C45204C4F57204C494E4520),
  (0x2018, 0x4C4546542053494E474C452051554F544154494F4E204D41524B20),
  (0x2019, 0x52494748542053494E474C452051554F544154494F4E204D41524B20),
  (0x201A, 0x53494E474C45204C4F572D392051554F544154494F4E204D41524B20),
  (0x201B, 0x53494E474C4520484947482D52455645525345442D392051554F544154494F4E204D41524B20),
  (0x201C, 0x4C45465420444F55424C452051554F544154494F4E204D41524B20),
  (0x201D, 0x524947485420444F55424C452051554F544154494F4E204D41524B20),
  (0x201E, 0x444F55424C45204C4F572D392051554F544154494F4E204D41524B20),
  (0x201F, 0x444F55424C4520484947482D52455645525345442D392051554F544154494F4E204D41524B20),
  (0x2020, 0x44414747455220),
  (0x2021, 0x444F55424C452044414747455220),
  (0x2022, 0x42554C4C455420),
  (0x2023, 0x545249414E47554C41522042554C4C455420),
  (0x2024, 0x4F4E4520444F54204C454144455220),
  (0x2025, 0x54574F20444F54204C454144455220),
  (0x2026, 0x484F52495A4F4E54414C20454C4C495053495320),
  (0x2027, 0x48595048454E4154494F4E20504F494E5420),
  (0x2028, 0x4C494E4520534550415241544F5220),
  (0x2029, 0x50415241475241504820534550415241544F5220),
  (0x202A, 0x4C4546542D544F2D524947485420454D42454444494E4720),
  (0x202B, 0x52494748542D544F2D4C45465420454D42454444494E4720),
  (0x202C, 0x504F5020444952454354494F4E414C20464F524D415454494E4720),
  (0x202D, 0x4C4546542D544F2D5249474854204F5645525249444520),
  (0x202E, 0x52494748542D544F2D4C454654204F5645525249444520),
  (0x202F, 0x4E4152524F57204E4F2D425245414B20535041434520),
  (0x2030, 0x504552204D494C4C45205349474E20)]
def names_112 : List (Nat × Nat) := [
  (0x2031, 0x5045522054454E2054484F5553414E44205349474E20),
  (0x2032, 0x5052494D4520),
  (0x2033, 0x444F55424C45205052494D4520),
  (0x2034, 0x545249504C45205052494D4520),
  (0x2035, 0x5245564552534544205052494D4520),
  (0x2036, 0x524556455253454420444F55424C45205052494D4520),
  (0x2037, 0x524556455253454420545249504C45205052494D4520),
  (0x2038, 0x434152455420),
  (0x2039, 0x53494E474C45204C4546542D504F494E54494E4720414E474C452051554F544154494F4E204D41524B20),
  (0x203A, 0x53494E474C452052494748542D504F494E54494E4720414E474C452051554F544154494F4E204D41524B20),
  (0x203B, 0x5245464552454E4345204D41524B20),
  (0x203C, 0x444F55424C45204558434C414D4154494F4E204D41524B20),
  (0x203D, 0x494E544552524F42414E4720),
  (0x203E, 0x4F5645524C494E4520),
  (0x203F, 0x554E44455254494520),
  (0x2040, 0x4348415241435445522054494520),
  (0x2041, 0x434152455420494E53455254494F4E20504F494E5420),
  (0x2042, 0x415354455249534D20),
  (0x2043, 0x48595048454E2042554C4C455420),
  (0x2044, 0x4652414354494F4E20534C41534820),
  (0x2045, 0x4C4546542053515541524520425241434B45542057495448205155494C4C20),
  (0x2046, 0x52494748542053515541524520425241434B45542057495448205155494C4C20),
  (0x2047, 0x444F55424C45205155455354494F4E204D41524B20),
  (0x2048, 0x5155455354494F4E204558434C414D4154494F4E204D41524B20),
  (0x2049, 0x4558434C414D4154494F4E205155455354494F4E204D41524B20),
  (0x204A, 0x5449524F4E49414E205349474E20455420),
  (0x204B, 0x52455645525345442050494C43524F57205349474E20),
  (0x204C, 0x424C41434B204C45465457415244532042554C4C455420),
  (0x204D, 0x424C41434B20524947485457415244532042554C4C455420),
  (0x204E, 0x4C4F5720415354455249534B20),
  (0x204F, 0x52455645525345442053454D49434F4C4F4E20),
  (0x2050, 0x434C4F534520555020),
  (0x2051, 0x54574F20415354455249534B5320414C49474E454420564552544943414C4C5920),
  (0x2052, 0x434F4D4D45524349414C204D494E5553205349474E20),
  (0x2053, 0x5357554E47204441534820),
  (0x2054, 0x494E56455254454420554E44455254494520),
  (0x2055, 0x464C4F5745522050554E4354554154494F4E204D41524B20),
  (0x2056, 0x544852454520444F542050554E4354554154494F4E20),
  (0x2057, 0x515541445255504C45205052494D4520),
  (0x2058, 0x464F555220444F542050554E4354554154494F4E20),
  (0x2059, 0x4649564520444F542050554E4354554154494F4E20),
  (0x205A, 0x54574F20444F542050554E4354554154494F4E20),
  (0x205B, 0x464F555220444F54204D41524B20),
  (0x205C, 0x444F545445442043524F535320),
  (0x205D, 0x545249434F4C4F4E20),
  (0x205E, 0x564552544943414C20464F555220444F545320),
  (0x205F, 0x4D454449554D204D415448454D41544943414C20535041434520),
  (0x2060, 0x574F5244204A4F494E455220),
  (0x2061, 0x46554E4354494F4E204150504C49434154494F4E20),
  (0x2062, 0x494E56495349424C452054494D455320),
  (0x2063, 0x494E56495349424C4520534550415241544F5220),
  (0x2064, 0x494E56495349424C4520504C555320),
  (0x2066, 0x4C4546542D544F2D52494748542049534F4C41544520),
  (0x2067, 0x52494748542D544F2D4C4546542049534F4C41544520),
  (0x2068, 0x4649525354205354524F4E472049534F4C41544520),
  (0x2069, 0x504F5020444952454354494F4E414C2049534F4C41544520),
  (0x206A, 0x494E48494249542053594D4D4554524943205357415050494E4720),
  (0x206B, 0x41435449564154452053594D4D4554524943205357415050494E4720),
  (0x206C, 0x494E48494249542041524142494320464F524D2053484150494E4720),
  (0x206D, 0x41435449564154452041524142494320464F524D2053484150494E4720),
  (0x206E, 0x4E4154494F4E414C2044494749542053484150455320),
  (0x206F, 0x4E4F4D494E414C2044494749542053484150455320),
  (0x2070, 0x5355504552534352495054205A45524F20),
  (0x2071, 0x5355504552534352495054204C4154494E20534D414C4C204C4554544552204920)]
def names_113 : List (Nat × Nat) := [
  (0x2074, 0x535550455253435249505420464F555220),
  (0x2075, 0x5355504552534352495054204649564520),
  (0x2076, 0x53555045525343524950542053495820),
  (0x2077, 0x535550455253435249505420534556454E20),
  (0x2078, 0x535550455253435249505420454947485420),
  (0x2079, 0x5355504552534352495054204E494E4520),
  (0x207A, 0x535550455253435249505420504C5553205349474E20),
  (0x207B, 0x5355504552534352495054204D494E555320),
  (0x207C, 0x535550455253435249505420455155414C53205349474E20),
  (0x207D, 0x5355504552534352495054204C45465420504152454E54484553495320),
  (0x207E, 0x535550455253435249505420524947485420504152454E54484553495320),
  (0x207F, 0x5355504552534352495054204C4154494E20534D414C4C204C4554544552204E20),
  (0x2080, 0x535542534352495054205A45524F20),
  (0x2081, 0x535542534352495054204F4E4520),
  (0x2082, 0x5355425343524950542054574F20),
  (0x2083, 0x53554253435249505420544852454520),
  (0x2084, 0x53554253435249505420464F555220),
  (0x2085, 0x535542534352495054204649564520),
  (0x2086, 0x5355425343524950542053495820),
  (0x2087, 0x53554253435249505420534556454E20),
  (0x2088, 0x53554253435249505420454947485420),
  (0x2089, 0x535542534352495054204E494E4520),
  (0x208A, 0x53554253435249505420504C5553205349474E20),
  (0x208B, 0x535542534352495054204D494E555320),
  (0x208C, 0x53554253435249505420455155414C53205349474E20),
  (0x208D, 0x535542534352495054204C45465420504152454E54484553495320),
  (0x208E, 0x53554253435249505420524947485420504152454E54484553495320),
  (0x2090, 0x4C4154494E2053554253435249505420534D414C4C204C4554544552204120),
  (0x2091, 0x4C4154494E2053554253435249505420534D414C4C204C4554544552204520),
  (0x2092, 0x4C4154494E2053554253435249505420534D414C4C204C4554544552204F20),
  (0x2093, 0x4C4154494E2053554253435249505420534D414C4C204C4554544552205820),
  (0x2094, 0x4C4154494E2053554253435249505420534D414C4C204C455454455220534348574120),
  (0x2095, 0x4C4154494E2053554253435249505420534D414C4C204C4554544552204820),
  (0x2096, 0x4C4154494E2053554253435249505420534D414C4C204C4554544552204B20),
  (0x2097, 0x4C4154494E2053554253435249505420534D414C4C204C4554544552204C20),
  (0x2098, 0x4C4154494E2053554253435249505420534D414C4C204C4554544552204D20),
  (0x2099, 0x4C4154494E2053554253435249505420534D414C4C204C4554544552204E20),
  (0x209A, 0x4C4154494E2053554253435249505420534D414C4C204C4554544552205020),
  (0x209B, 0x4C4154494E2053554253435249505420534D414C4C204C4554544552205320),
  (0x209C, 0x4C4154494E2053554253435249505420534D414C4C204C4554544552205420),
  (0x20A0, 0x4555524F2D43555252454E4359205349474E20),
  (0x20A1, 0x434F4C4F4E205349474E20),
  (0x20A2, 0x4352555A4549524F205349474E20),
  (0x20A3, 0x4652454E4348204652414E43205349474E20),
  (0x20A4, 0x4C495241205349474E20),
  (0x20A5, 0x4D494C4C205349474E20),
  (0x20A6, 0x4E41495241205349474E20),
  (0x20A7, 0x504553455441205349474E20),
  (0x20A8, 0x5255504545205349474E20),
  (0x20A9, 0x574F4E205349474E20),
  (0x20AA, 0x4E45572053484551454C205349474E20),
  (0x20AB, 0x444F4E47205349474E20),
  (0x20AC, 0x4555524F205349474E20),
  (0x20AD, 0x4B4950205349474E20),
  (0x20AE, 0x54554752494B205349474E20),
  (0x20AF, 0x44524143484D41205349474E20),
  (0x20B0, 0x4745524D414E2050454E4E59205349474E20),
  (0x20B1, 0x5045534F205349474E20),
  (0x20B2, 0x47554152414E49205349474E20),
  (0x20B3, 0x4155535452414C205349474E20),
  (0x20B4, 0x485259564E4941205349474E20),
  (0x20B5, 0x43454449205349474E20),
  (0x20B6, 0x4C4956524520544F55524E4F4953205349474E20),
  (0x20B7, 0x535045534D494C4F205349474E20)]
def names_114 : List (Nat × Nat) := [
  (0x20B8, 0x54454E4745205349474E20),
  (0x20B9, 0x494E4449414E205255504545205349474E20),
  (0x20BA, 0x5455524B495348204C495241205349474E20),
  (0x20BB, 0x4E4F52444943204D41524B205349474E20),
  (0x20BC, 0x4D414E4154205349474E20),
  (0x20BD, 0x5255424C45205349474E20),
  (0x20BE, 0x4C415249205349474E20),
  (0x20BF, 0x424954434F494E205349474E20),
  (0x20D0, 0x434F4D42494E494E47204C45465420484152504F4F4E2041424F564520),
  (0x20D1, 0x434F4D42494E494E4720524947485420484152504F4F4E2041424F564520),
  (0x20D2, 0x434F4D42494E494E47204C4F4E4720564552544943414C204C494E45204F5645524C415920),
  (0x20D3, 0x434F4D42494E494E472053484F525420564552544943414C204C494E45204F5645524C415920),
  (0x20D4, 0x434F4D42494E494E4720414E5449434C4F434B57495345204152524F572041424F564520),
  (0x20D5, 0x434F4D42494E494E4720434C4F434B57495345204152524F572041424F564520),
  (0x20D6, 0x434F4D42494E494E47204C454654204152524F572041424F564520),
  (0x20D7, 0x434F4D42494E494E47205249474854204152524F572041424F564520),
  (0x20D8, 0x434F4D42494E494E472052494E47204F5645524C415920),
  (0x20D9, 0x434F4D42494E494E4720434C4F434B574953452052494E47204F5645524C415920),
  (0x20DA, 0x434F4D42494E494E4720414E5449434C4F434B574953452052494E47204F5645524C415920),
  (0x20DB, 0x434F4D42494E494E4720544852454520444F54532041424F564520),
  (0x20DC, 0x434F4D42494E494E4720464F555220444F54532041424F564520),
  (0x20DD, 0x434F4D42494E494E4720454E434C4F53494E4720434952434C4520),
  (0x20DE, 0x434F4D42494E494E4720454E434C4F53494E472053515541524520),
  (0x20DF, 0x434F4D42494E494E4720454E434C4F53494E47204449414D4F4E4420),
  (0x20E0, 0x434F4D42494E494E4720454E434C4F53494E4720434952434C45204241434B534C41534820),
  (0x20E1, 0x434F4D42494E494E47204C454654205249474854204152524F572041424F564520),
  (0x20E2, 0x434F4D42494E494E4720454E434C4F53494E472053435245454E20),
  (0x20E3, 0x434F4D42494E494E4720454E434C4F53494E47204B455943415020),
  (0x20E4, 0x434F4D42494E494E4720454E434C4F53494E472055505741524420504F494E54494E4720545249414E474C4520),
  (0x20E5, 0x434F4D42494E494E47205245564552534520534F4C49445553204F5645524C415920),
  (0x20E6, 0x434F4D42494E494E4720444F55424C4520564552544943414C205354524F4B45204F5645524C415920),
  (0x20E7, 0x434F4D42494E494E4720414E4E554954592053594D424F4C20),
  (0x20E8, 0x434F4D42494E494E4720545249504C4520554E444552444F5420),
  (0x20E9, 0x434F4D42494E494E472057494445204252494447452041424F564520),
  (0x20EA, 0x434F4D42494E494E47204C4546545741524453204152524F57204F5645524C415920),
  (0x20EB, 0x434F4D42494E494E47204C4F4E4720444F55424C4520534F4C49445553204F5645524C415920),
  (0x20EC, 0x434F4D42494E494E47205249474854574152445320484152504F4F4E2057495448204241524220444F574E574152445320),
  (0x20ED, 0x434F4D42494E494E47204C454654574152445320484152504F4F4E2057495448204241524220444F574E574152445320),
  (0x20EE, 0x434F4D42494E494E47204C454654204152524F572042454C4F5720),
  (0x20EF, 0x434F4D42494E494E47205249474854204152524F572042454C4F5720),
  (0x20F0, 0x434F4D42494E494E4720415354455249534B2041424F564520),
  (0x2100, 0x4143434F554E54204F4620),
  (0x2101, 0x41444452455353454420544F20544845205355424A45435420),
  (0x2102, 0x444F55424C452D53545255434B204341504954414C204320),
  (0x2103, 0x4445475245452043454C5349555320),
  (0x2104, 0x43454E545245204C494E452053594D424F4C20),
  (0x2105, 0x43415245204F4620),
  (0x2106, 0x4341444120554E4120),
  (0x2107, 0x45554C455220434F4E5354414E5420),
  (0x2108, 0x53435255504C4520),
  (0x2109, 0x4445475245452046414852454E4845495420),
  (0x210A, 0x53435249505420534D414C4C204720),
  (0x210B, 0x534352495054204341504954414C204820),
  (0x210C, 0x424C41434B2D4C4554544552204341504954414C204820),
  (0x210D, 0x444F55424C452D53545255434B204341504954414C204820),
  (0x210E, 0x504C414E434B20434F4E5354414E5420),
  (0x210F, 0x504C414E434B20434F4E5354414E54204F5645522054574F20504920),
  (0x2110, 0x534352495054204341504954414C204920),
  (0x2111, 0x424C41434B2D4C4554544552204341504954414C204920),
  (0x2112, 0x534352495054204341504954414C204C20),
  (0x2113, 0x53435249505420534D414C4C204C20),
  (0x2114, 0x4C2042204241522053594D424F4C20),
  (0x2115, 0x444F55424C452D53545255434B204341504954414C204E20),
  (0x2116, 0x4E554D45524F205349474E20)]
def names_115 : List (Nat × Nat) := [
  (0x2117, 0x534F554E44205245434F5244494E4720434F5059524947485420),
  (0x2118, 0x534352495054204341504954414C205020),
  (0x2119, 0x444F55424C452D53545255434B204341504954414C205020),
  (0x211A, 0x444F55424C452D53545255434B204341504954414C205120),
  (0x211B, 0x534352495054204341504954414C205220),
  (0x211C, 0x424C41434B2D4C4554544552204341504954414C205220),
  (0x211D, 0x444F55424C452D53545255434B204341504954414C205220),
  (0x211E, 0x505245534352495054494F4E2054414B4520),
  (0x211F, 0x524553504F4E534520),
  (0x2120, 0x53455256494345204D41524B20),
  (0x2121, 0x54454C4550484F4E45205349474E20),
  (0x2122, 0x5452414445204D41524B205349474E20),
  (0x2123, 0x5645525349434C4520),
  (0x2124, 0x444F55424C452D53545255434B204341504954414C205A20),
  (0x2125, 0x4F554E4345205349474E20),
  (0x2126, 0x4F484D205349474E20),
  (0x2127, 0x494E564552544544204F484D205349474E20),
  (0x2128, 0x424C41434B2D4C4554544552204341504954414C205A20),
  (0x2129, 0x5455524E454420475245454B20534D414C4C204C455454455220494F544120),
  (0x212A, 0x4B454C56494E205349474E20),
  (0x212B, 0x414E475354524F4D205349474E20),
  (0x212C, 0x534352495054204341504954414C204220),
  (0x212D, 0x424C41434B2D4C4554544552204341504954414C204320),
  (0x212E, 0x455354494D415445442053594D424F4C20),
  (0x212F, 0x53435249505420534D414C4C204520),
  (0x2130, 0x534352495054204341504954414C204520),
  (0x2131, 0x534352495054204341504954414C204620),
  (0x2132, 0x5455524E4544204341504954414C204620),
  (0x2133, 0x534352495054204341504954414C204D20),
  (0x2134, 0x53435249505420534D414C4C204F20),
  (0x2135, 0x414C45462053594D424F4C20),
  (0x2136, 0x4245542053594D424F4C20),
  (0x2137, 0x47494D454C2053594D424F4C20),
  (0x2138, 0x44414C45542053594D424F4C20),
  (0x2139, 0x494E464F524D4154494F4E20534F5552434520),
  (0x213A, 0x524F5441544544204341504954414C205120),
  (0x213B, 0x46414353494D494C45205349474E20),
  (0x213C, 0x444F55424C452D53545255434B20534D414C4C20504920),
  (0x213D, 0x444F55424C452D53545255434B20534D414C4C2047414D4D4120),
  (0x213E, 0x444F55424C452D53545255434B204341504954414C2047414D4D4120),
  (0x213F, 0x444F55424C452D53545255434B204341504954414C20504920),
  (0x2140, 0x444F55424C452D53545255434B204E2D4152592053554D4D4154494F4E20),
  (0x2141, 0x5455524E45442053414E532D5345524946204341504954414C204720),
  (0x2142, 0x5455524E45442053414E532D5345524946204341504954414C204C20),
  (0x2143, 0x52455645525345442053414E532D5345524946204341504954414C204C20),
  (0x2144, 0x5455524E45442053414E532D5345524946204341504954414C205920),
  (0x2145, 0x444F55424C452D53545255434B204954414C4943204341504954414C204420),
  (0x2146, 0x444F55424C452D53545255434B204954414C494320534D414C4C204420),
  (0x2147, 0x444F55424C452D53545255434B204954414C494320534D414C4C204520),
  (0x2148, 0x444F55424C452D53545255434B204954414C494320534D414C4C204920),
  (0x2149, 0x444F55424C452D53545255434B204954414C494320534D414C4C204A20),
  (0x214A, 0x50524F5045525459204C494E4520),
  (0x214B, 0x5455524E454420414D50455253414E4420),
  (0x214C, 0x504552205349474E20),
  (0x214D, 0x414B54494553454C534B414220),
  (0x214E, 0x5455524E454420534D414C4C204620),
  (0x214F, 0x53594D424F4C20464F522053414D41524954414E20534F5552434520),
  (0x2150, 0x56554C474152204652414354494F4E204F4E4520534556454E544820),
  (0x2151, 0x56554C474152204652414354494F4E204F4E45204E494E544820),
  (0x2152, 0x56554C474152204652414354494F4E204F4E452054454E544820),
  (0x2153, 0x56554C474152204652414354494F4E204F4E4520544849524420),
  (0x2154, 0x56554C474152204652414354494F4E2054574F2054484952445320),
  (0x2155, 0x56554C474152204652414354494F4E204F4E4520464946544820),
  (0x2156, 0x56554C474152204652414354494F4E2054574F2046494654485320)]
def names_116 : List (Nat × Nat) := [
  (0x2157, 0x56554C474152204652414354494F4E2054485245452046494654485320),
  (0x2158, 0x56554C474152204652414354494F4E20464F55522046494654485320),
  (0x2159, 0x56554C474152204652414354494F4E204F4E4520534958544820),
  (0x215A, 0x56554C474152204652414354494F4E20464956452053495854485320),
  (0x215B, 0x56554C474152204652414354494F4E204F4E452045494748544820),
  (0x215C, 0x56554C474152204652414354494F4E205448524545204549474854485320),
  (0x215D, 0x56554C474152204652414354494F4E2046495645204549474854485320),
  (0x215E, 0x56554C474152204652414354494F4E20534556454E204549474854485320),
  (0x215F, 0x4652414354494F4E204E554D455241544F52204F4E4520),
  (0x2160, 0x524F4D414E204E554D4552414C204F4E4520),
  (0x2161, 0x524F4D414E204E554D4552414C2054574F20),
  (0x2162, 0x524F4D414E204E554D4552414C20544852454520),
  (0x2163, 0x524F4D414E204E554D4552414C20464F555220),
  (0x2164, 0x524F4D414E204E554D4552414C204649564520),
  (0x2165, 0x524F4D414E204E554D4552414C2053495820),
  (0x2166, 0x524F4D414E204E554D4552414C20534556454E20),
  (0x2167, 0x524F4D414E204E554D4552414C20454947485420),
  (0x2168, 0x524F4D414E204E554D4552414C204E494E4520),
  (0x2169, 0x524F4D414E204E554D4552414C2054454E20),
  (0x216A, 0x524F4D414E204E554D4552414C20454C4556454E20),
  (0x216B, 0x524F4D414E204E554D4552414C205457454C564520),
  (0x216C, 0x524F4D414E204E554D4552414C20464946545920),
  (0x216D, 0x524F4D414E204E554D4552414C204F4E452048554E4452454420),
  (0x216E, 0x524F4D414E204E554D4552414C20464956452048554E4452454420),
  (0x216F, 0x524F4D414E204E554D4552414C204F4E452054484F5553414E4420),
  (0x2170, 0x534D414C4C20524F4D414E204E554D4552414C204F4E4520),
  (0x2171, 0x534D414C4C20524F4D414E204E554D4552414C2054574F20),
  (0x2172, 0x534D414C4C20524F4D414E204E554D4552414C20544852454520),
  (0x2173, 0x534D414C4C20524F4D414E204E554D4552414C20464F555220),
  (0x2174, 0x534D414C4C20524F4D414E204E554D4552414C204649564520),
  (0x2175, 0x534D414C4C20524F4D414E204E554D4552414C2053495820),
  (0x2176, 0x534D414C4C20524F4D414E204E554D4552414C20534556454E20),
  (0x2177, 0x534D414C4C20524F4D414E204E554D4552414C20454947485420),
  (0x2178, 0x534D414C4C20524F4D414E204E554D4552414C204E494E4520),
  (0x2179, 0x534D414C4C20524F4D414E204E554D4552414C2054454E20),
  (0x217A, 0x534D414C4C20524F4D414E204E554D4552414C20454C4556454E20),
  (0x217B, 0x534D414C4C20524F4D414E204E554D4552414C205457454C564520),
  (0x217C, 0x534D414C4C20524F4D414E204E554D4552414C20464946545920),
  (0x217D, 0x534D414C4C20524F4D414E204E554D4552414C204F4E452048554E4452454420),
  (0x217E, 0x534D414C4C20524F4D414E204E554D4552414C20464956452048554E4452454420),
  (0x217F, 0x534D414C4C20524F4D414E204E554D4552414C204F4E452054484F5553414E4420),
  (0x2180, 0x524F4D414E204E554D4552414C204F4E452054484F5553414E442043204420),
  (0x2181, 0x524F4D414E204E554D4552414C20464956452054484F5553414E4420),
  (0x2182, 0x524F4D414E204E554D4552414C2054454E2054484F5553414E4420),
  (0x2183, 0x524F4D414E204E554D4552414C205245564552534544204F4E452048554E4452454420),
  (0x2184, 0x4C4154494E20534D414C4C204C4554544552205245564552534544204320),
  (0x2185, 0x524F4D414E204E554D4552414C20534958204C41544520464F524D20),
  (0x2186, 0x524F4D414E204E554D4552414C204649465459204541524C5920464F524D20),
  (0x2187, 0x524F4D414E204E554D4552414C2046494654592054484F5553414E4420),
  (0x2188, 0x524F4D414E204E554D4552414C204F4E452048554E445245442054484F5553414E4420),
  (0x2189, 0x56554C474152204652414354494F4E205A45524F2054484952445320),
  (0x218A, 0x5455524E45442044494749542054574F20),
  (0x218B, 0x5455524E454420444947495420544852454520),
  (0x2190, 0x4C4546545741524453204152524F5720),
  (0x2191, 0x55505741524453204152524F5720),
  (0x2192, 0x52494748545741524453204152524F5720),
  (0x2193, 0x444F574E5741524453204152524F5720),
  (0x2194, 0x4C454654205249474854204152524F5720),
  (0x2195, 0x555020444F574E204152524F5720),
  (0x2196, 0x4E4F5254482057455354204152524F5720),
  (0x2197, 0x4E4F5254482045415354204152524F5720),
  (0x2198, 0x534F5554482045415354204152524F5720),
  (0x2199, 0x534F5554482057455354204152524F5720),
  (0x219A, 0x4C4546545741524453204152524F572057495448205354524F4B4520)]
def names_117 : List (Nat × Nat) := [
  (0x219B, 0x52494748545741524453204152524F572057495448205354524F4B4520),
  (0x219C, 0x4C45465457415244532057415645204152524F5720),
  (0x219D, 0x524947485457415244532057415645204152524F5720),
  (0x219E, 0x4C45465457415244532054574F20484541444544204152524F5720),
  (0x219F, 0x555057415244532054574F20484541444544204152524F5720),
  (0x21A0, 0x524947485457415244532054574F20484541444544204152524F5720),
  (0x21A1, 0x444F574E57415244532054574F20484541444544204152524F5720),
  (0x21A2, 0x4C4546545741524453204152524F572057495448205441494C20),
  (0x21A3, 0x52494748545741524453204152524F572057495448205441494C20),
  (0x21A4, 0x4C4546545741524453204152524F572046524F4D2042415220),
  (0x21A5, 0x55505741524453204152524F572046524F4D2042415220),
  (0x21A6, 0x52494748545741524453204152524F572046524F4D2042415220),
  (0x21A7, 0x444F574E5741524453204152524F572046524F4D2042415220),
  (0x21A8, 0x555020444F574E204152524F572057495448204241534520),
  (0x21A9, 0x4C4546545741524453204152524F57205749544820484F4F4B20),
  (0x21AA, 0x52494748545741524453204152524F57205749544820484F4F4B20),
  (0x21AB, 0x4C4546545741524453204152524F572057495448204C4F4F5020),
  (0x21AC, 0x52494748545741524453204152524F572057495448204C4F4F5020),
  (0x21AD, 0x4C4546542052494748542057415645204152524F5720),
  (0x21AE, 0x4C454654205249474854204152524F572057495448205354524F4B4520),
  (0x21AF, 0x444F574E5741524453205A49475A4147204152524F5720),
  (0x21B0, 0x55505741524453204152524F57205749544820544950204C454654574152445320),
  (0x21B1, 0x55505741524453204152524F57205749544820544950205249474854574152445320),
  (0x21B2, 0x444F574E5741524453204152524F57205749544820544950204C454654574152445320),
  (0x21B3, 0x444F574E5741524453204152524F57205749544820544950205249474854574152445320),
  (0x21B4, 0x52494748545741524453204152524F57205749544820434F524E455220444F574E574152445320),
  (0x21B5, 0x444F574E5741524453204152524F57205749544820434F524E4552204C454654574152445320),
  (0x21B6, 0x414E5449434C4F434B5749534520544F502053454D49434952434C45204152524F5720),
  (0x21B7, 0x434C4F434B5749534520544F502053454D49434952434C45204152524F5720),
  (0x21B8, 0x4E4F5254482057455354204152524F5720544F204C4F4E472042415220),
  (0x21B9, 0x4C4546545741524453204152524F5720544F20424152204F5645522052494748545741524453204152524F5720544F2042415220),
  (0x21BA, 0x414E5449434C4F434B57495345204F50454E20434952434C45204152524F5720),
  (0x21BB, 0x434C4F434B57495345204F50454E20434952434C45204152524F5720),
  (0x21BC, 0x4C454654574152445320484152504F4F4E20574954482042415242205550574152445320),
  (0x21BD, 0x4C454654574152445320484152504F4F4E2057495448204241524220444F574E574152445320),
  (0x21BE, 0x5550574152445320484152504F4F4E20574954482042415242205249474854574152445320),
  (0x21BF, 0x5550574152445320484152504F4F4E20574954482042415242204C454654574152445320),
  (0x21C0, 0x5249474854574152445320484152504F4F4E20574954482042415242205550574152445320),
  (0x21C1, 0x5249474854574152445320484152504F4F4E2057495448204241524220444F574E574152445320),
  (0x21C2, 0x444F574E574152445320484152504F4F4E20574954482042415242205249474854574152445320),
  (0x21C3, 0x444F574E574152445320484152504F4F4E20574954482042415242204C454654574152445320),
  (0x21C4, 0x52494748545741524453204152524F57204F564552204C4546545741524453204152524F5720),
  (0x21C5, 0x55505741524453204152524F57204C4546545741524453204F4620444F574E5741524453204152524F5720),
  (0x21C6, 0x4C4546545741524453204152524F57204F5645522052494748545741524453204152524F5720),
  (0x21C7, 0x4C454654574152445320504149524544204152524F575320),
  (0x21C8, 0x5550574152445320504149524544204152524F575320),
  (0x21C9, 0x5249474854574152445320504149524544204152524F575320),
  (0x21CA, 0x444F574E574152445320504149524544204152524F575320),
  (0x21CB, 0x4C454654574152445320484152504F4F4E204F564552205249474854574152445320484152504F4F4E20),
  (0x21CC, 0x5249474854574152445320484152504F4F4E204F564552204C454654574152445320484152504F4F4E20),
  (0x21CD, 0x4C454654574152445320444F55424C45204152524F572057495448205354524F4B4520),
  (0x21CE, 0x4C45465420524947485420444F55424C45204152524F572057495448205354524F4B4520),
  (0x21CF, 0x5249474854574152445320444F55424C45204152524F572057495448205354524F4B4520),
  (0x21D0, 0x4C454654574152445320444F55424C45204152524F5720),
  (0x21D1, 0x5550574152445320444F55424C45204152524F5720),
  (0x21D2, 0x5249474854574152445320444F55424C45204152524F5720),
  (0x21D3, 0x444F574E574152445320444F55424C45204152524F5720),
  (0x21D4, 0x4C45465420524947485420444F55424C45204152524F5720),
  (0x21D5, 0x555020444F574E20444F55424C45204152524F5720),
  (0x21D6, 0x4E4F525448205745535420444F55424C45204152524F5720),
  (0x21D7, 0x4E4F525448204541535420444F55424C45204152524F5720),
  (0x21D8, 0x534F555448204541535420444F55424C45204152524F5720),
  (0x21D9, 0x534F555448205745535420444F55424C45204152524F5720),
  (0x21DA, 0x4C454654574152445320545249504C45204152524F5720)]
def names_118 : List (Nat × Nat) := [
  (0x21DB, 0x5249474854574152445320545249504C45204152524F5720),
  (0x21DC, 0x4C4546545741524453205351554947474C45204152524F5720),
  (0x21DD, 0x52494748545741524453205351554947474C45204152524F5720),
  (0x21DE, 0x55505741524453204152524F57205749544820444F55424C45205354524F4B4520),
  (0x21DF, 0x444F574E5741524453204152524F57205749544820444F55424C45205354524F4B4520),
  (0x21E0, 0x4C454654574152445320444153484544204152524F5720),
  (0x21E1, 0x5550574152445320444153484544204152524F5720),
  (0x21E2, 0x5249474854574152445320444153484544204152524F5720),
  (0x21E3, 0x444F574E574152445320444153484544204152524F5720),
  (0x21E4, 0x4C4546545741524453204152524F5720544F2042415220),
  (0x21E5, 0x52494748545741524453204152524F5720544F2042415220),
  (0x21E6, 0x4C4546545741524453205748495445204152524F5720),
  (0x21E7, 0x55505741524453205748495445204152524F5720),
  (0x21E8, 0x52494748545741524453205748495445204152524F5720),
  (0x21E9, 0x444F574E5741524453205748495445204152524F5720),
  (0x21EA, 0x55505741524453205748495445204152524F572046524F4D2042415220),
  (0x21EB, 0x55505741524453205748495445204152524F57204F4E20504544455354414C20),
  (0x21EC, 0x55505741524453205748495445204152524F57204F4E20504544455354414C205749544820484F52495A4F4E54414C2042415220),
  (0x21ED, 0x55505741524453205748495445204152524F57204F4E20504544455354414C205749544820564552544943414C2042415220),
  (0x21EE, 0x5550574152445320574849544520444F55424C45204152524F5720),
  (0x21EF, 0x5550574152445320574849544520444F55424C45204152524F57204F4E20504544455354414C20),
  (0x21F0, 0x52494748545741524453205748495445204152524F572046524F4D2057414C4C20),
  (0x21F1, 0x4E4F5254482057455354204152524F5720544F20434F524E455220),
  (0x21F2, 0x534F5554482045415354204152524F5720544F20434F524E455220),
  (0x21F3, 0x555020444F574E205748495445204152524F5720),
  (0x21F4, 0x5249474854204152524F57205749544820534D414C4C20434952434C4520),
  (0x21F5, 0x444F574E5741524453204152524F57204C4546545741524453204F462055505741524453204152524F5720),
  (0x21F6, 0x54485245452052494748545741524453204152524F575320),
  (0x21F7, 0x4C4546545741524453204152524F57205749544820564552544943414C205354524F4B4520),
  (0x21F8, 0x52494748545741524453204152524F57205749544820564552544943414C205354524F4B4520),
  (0x21F9, 0x4C454654205249474854204152524F57205749544820564552544943414C205354524F4B4520),
  (0x21FA, 0x4C4546545741524453204152524F57205749544820444F55424C4520564552544943414C205354524F4B4520),
  (0x21FB, 0x52494748545741524453204152524F57205749544820444F55424C4520564552544943414C205354524F4B4520),
  (0x21FC, 0x4C454654205249474854204152524F57205749544820444F55424C4520564552544943414C205354524F4B4520),
  (0x21FD, 0x4C4546545741524453204F50454E2D484541444544204152524F5720),
  (0x21FE, 0x52494748545741524453204F50454E2D484541444544204152524F5720),
  (0x21FF, 0x4C454654205249474854204F50454E2D484541444544204152524F5720),
  (0x2200, 0x464F5220414C4C20),
  (0x2201, 0x434F4D504C454D454E5420),
  (0x2202, 0x5041525449414C20444946464552454E5449414C20),
  (0x2203, 0x54484552452045584953545320),
  (0x2204, 0x544845524520444F4553204E4F5420455849535420),
  (0x2205, 0x454D5054592053455420),
  (0x2206, 0x494E4352454D454E5420),
  (0x2207, 0x4E41424C4120),
  (0x2208, 0x454C454D454E54204F4620),
  (0x2209, 0x4E4F5420414E20454C454D454E54204F4620),
  (0x220A, 0x534D414C4C20454C454D454E54204F4620),
  (0x220B, 0x434F4E5441494E53204153204D454D42455220),
  (0x220C, 0x444F4553204E4F5420434F4E5441494E204153204D454D42455220),
  (0x220D, 0x534D414C4C20434F4E5441494E53204153204D454D42455220),
  (0x220E, 0x454E44204F462050524F4F4620),
  (0x220F, 0x4E2D4152592050524F4455435420),
  (0x2210, 0x4E2D41525920434F50524F4455435420),
  (0x2211, 0x4E2D4152592053554D4D4154494F4E20),
  (0x2212, 0x4D494E5553205349474E20),
  (0x2213, 0x4D494E55532D4F522D504C5553205349474E20),
  (0x2214, 0x444F5420504C555320),
  (0x2215, 0x4449564953494F4E20534C41534820),
  (0x2216, 0x534554204D494E555320),
  (0x2217, 0x415354455249534B204F50455241544F5220),
  (0x2218, 0x52494E47204F50455241544F5220),
  (0x2219, 0x42554C4C4554204F50455241544F5220),
  (0x221A, 0x53515541524520524F4F5420)]
def names_119 : List (Nat × Nat) := [
  (0x221B, 0x4355424520524F4F5420),
  (0x221C, 0x464F5552544820524F4F5420),
  (0x221D, 0x50524F504F5254494F4E414C20544F20),
  (0x221E, 0x494E46494E49545920),
  (0x221F, 0x524947485420414E474C4520),
  (0x2220, 0x414E474C4520),
  (0x2221, 0x4D4541535552454420414E474C4520),
  (0x2222, 0x53504845524943414C20414E474C4520),
  (0x2223, 0x4449564944455320),
  (0x2224, 0x444F4553204E4F542044495649444520),
  (0x2225, 0x504152414C4C454C20544F20),
  (0x2226, 0x4E4F5420504152414C4C454C20544F20),
  (0x2227, 0x4C4F474943414C20414E4420),
  (0x2228, 0x4C4F474943414C204F5220),
  (0x2229, 0x494E54455253454354494F4E20),
  (0x222A, 0x554E494F4E20),
  (0x222B, 0x494E54454752414C20),
  (0x222C, 0x444F55424C4520494E54454752414C20),
  (0x222D, 0x545249504C4520494E54454752414C20),
  (0x222E, 0x434F4E544F555220494E54454752414C20),
  (0x222F, 0x5355524641434520494E54454752414C20),
  (0x2230, 0x564F4C554D4520494E54454752414C20),
  (0x2231, 0x434C4F434B5749534520494E54454752414C20),
  (0x2232, 0x434C4F434B5749534520434F4E544F555220494E54454752414C20),
  (0x2233, 0x414E5449434C4F434B5749534520434F4E544F555220494E54454752414C20),
  (0x2234, 0x5448455245464F524520),
  (0x2235, 0x4245434155534520),
  (0x2236, 0x524154494F20),
  (0x2237, 0x50524F504F5254494F4E20),
  (0x2238, 0x444F54204D494E555320),
  (0x2239, 0x45584345535320),
  (0x223A, 0x47454F4D45545249432050524F504F5254494F4E20),
  (0x223B, 0x484F4D4F54484554494320),
  (0x223C, 0x54494C4445204F50455241544F5220),
  (0x223D, 0x52455645525345442054494C444520),
  (0x223E, 0x494E564552544544204C415A59205320),
  (0x223F, 0x53494E45205741564520),
  (0x2240, 0x5752454154482050524F4455435420),
  (0x2241, 0x4E4F542054494C444520),
  (0x2242, 0x4D494E55532054494C444520),
  (0x2243, 0x4153594D50544F544943414C4C5920455155414C20544F20),
  (0x2244, 0x4E4F54204153594D50544F544943414C4C5920455155414C20544F20),
  (0x2245, 0x415050524F58494D4154454C5920455155414C20544F20),
  (0x2246, 0x415050524F58494D4154454C5920425554204E4F542041435455414C4C5920455155414C20544F20),
  (0x2247, 0x4E45495448455220415050524F58494D4154454C59204E4F522041435455414C4C5920455155414C20544F20),
  (0x2248, 0x414C4D4F535420455155414C20544F20),
  (0x2249, 0x4E4F5420414C4D4F535420455155414C20544F20),
  (0x224A, 0x414C4D4F535420455155414C204F5220455155414C20544F20),
  (0x224B, 0x545249504C452054494C444520),
  (0x224C, 0x414C4C20455155414C20544F20),
  (0x224D, 0x4551554956414C454E5420544F20),
  (0x224E, 0x47454F4D4554524943414C4C59204551554956414C454E5420544F20),
  (0x224F, 0x444946464552454E4345204245545745454E20),
  (0x2250, 0x415050524F414348455320544845204C494D495420),
  (0x2251, 0x47454F4D4554524943414C4C5920455155414C20544F20),
  (0x2252, 0x415050524F58494D4154454C5920455155414C20544F204F522054484520494D414745204F4620),
  (0x2253, 0x494D414745204F46204F5220415050524F58494D4154454C5920455155414C20544F20),
  (0x2254, 0x434F4C4F4E20455155414C5320),
  (0x2255, 0x455155414C5320434F4C4F4E20),
  (0x2256, 0x52494E4720494E20455155414C20544F20),
  (0x2257, 0x52494E4720455155414C20544F20),
  (0x2258, 0x434F52524553504F4E445320544F20),
  (0x2259, 0x455354494D4154455320),
  (0x225A, 0x45515549414E47554C415220544F20)]
def names_120 : List (Nat × Nat) := [
  (0x225B, 0x5354415220455155414C5320),
  (0x225C, 0x44454C544120455155414C20544F20),
  (0x225D, 0x455155414C20544F20425920444546494E4954494F4E20),
  (0x225E, 0x4D4541535552454420425920),
  (0x225F, 0x5155455354494F4E454420455155414C20544F20),
  (0x2260, 0x4E4F5420455155414C20544F20),
  (0x2261, 0x4944454E544943414C20544F20),
  (0x2262, 0x4E4F54204944454E544943414C20544F20),
  (0x2263, 0x5354524943544C59204551554956414C454E5420544F20),
  (0x2264, 0x4C4553532D5448414E204F5220455155414C20544F20),
  (0x2265, 0x475245415445522D5448414E204F5220455155414C20544F20),
  (0x2266, 0x4C4553532D5448414E204F56455220455155414C20544F20),
  (0x2267, 0x475245415445522D5448414E204F56455220455155414C20544F20),
  (0x2268, 0x4C4553532D5448414E20425554204E4F5420455155414C20544F20),
  (0x2269, 0x475245415445522D5448414E20425554204E4F5420455155414C20544F20),
  (0x226A, 0x4D554348204C4553532D5448414E20),
  (0x226B, 0x4D55434820475245415445522D5448414E20),
  (0x226C, 0x4245545745454E20),
  (0x226D, 0x4E4F54204551554956414C454E5420544F20),
  (0x226E, 0x4E4F54204C4553532D5448414E20),
  (0x226F, 0x4E4F5420475245415445522D5448414E20),
  (0x2270, 0x4E454954484552204C4553532D5448414E204E4F5220455155414C20544F20),
  (0x2271, 0x4E45495448455220475245415445522D5448414E204E4F5220455155414C20544F20),
  (0x2272, 0x4C4553532D5448414E204F52204551554956414C454E5420544F20),
  (0x2273, 0x475245415445522D5448414E204F52204551554956414C454E5420544F20),
  (0x2274, 0x4E454954484552204C4553532D5448414E204E4F52204551554956414C454E5420544F20),
  (0x2275, 0x4E45495448455220475245415445522D5448414E204E4F52204551554956414C454E5420544F20),
  (0x2276, 0x4C4553532D5448414E204F5220475245415445522D5448414E20),
  (0x2277, 0x475245415445522D5448414E204F52204C4553532D5448414E20),
  (0x2278, 0x4E454954484552204C4553532D5448414E204E4F5220475245415445522D5448414E20),
  (0x2279, 0x4E45495448455220475245415445522D5448414E204E4F52204C4553532D5448414E20),
  (0x227A, 0x505245434544455320),
  (0x227B, 0x535543434545445320),
  (0x227C, 0x5052454345444553204F5220455155414C20544F20),
  (0x227D, 0x5355434345454453204F5220455155414C20544F20),
  (0x227E, 0x5052454345444553204F52204551554956414C454E5420544F20),
  (0x227F, 0x5355434345454453204F52204551554956414C454E5420544F20),
  (0x2280, 0x444F4553204E4F54205052454345444520),
  (0x2281, 0x444F4553204E4F54205355434345454420),
  (0x2282, 0x535542534554204F4620),
  (0x2283, 0x5355504552534554204F4620),
  (0x2284, 0x4E4F54204120535542534554204F4620),
  (0x2285, 0x4E4F542041205355504552534554204F4620),
  (0x2286, 0x535542534554204F46204F5220455155414C20544F20),
  (0x2287, 0x5355504552534554204F46204F5220455155414C20544F20),
  (0x2288, 0x4E454954484552204120535542534554204F46204E4F5220455155414C20544F20),
  (0x2289, 0x4E4549544845522041205355504552534554204F46204E4F5220455155414C20544F20),
  (0x228A, 0x535542534554204F462057495448204E4F5420455155414C20544F20),
  (0x228B, 0x5355504552534554204F462057495448204E4F5420455155414C20544F20),
  (0x228C, 0x4D554C544953455420),
  (0x228D, 0x4D554C5449534554204D554C5449504C49434154494F4E20),
  (0x228E, 0x4D554C544953455420554E494F4E20),
  (0x228F, 0x53515541524520494D414745204F4620),
  (0x2290, 0x535155415245204F524947494E414C204F4620),
  (0x2291, 0x53515541524520494D414745204F46204F5220455155414C20544F20),
  (0x2292, 0x535155415245204F524947494E414C204F46204F5220455155414C20544F20),
  (0x2293, 0x5351554152452043415020),
  (0x2294, 0x5351554152452043555020),
  (0x2295, 0x434952434C454420504C555320),
  (0x2296, 0x434952434C4544204D494E555320),
  (0x2297, 0x434952434C45442054494D455320),
  (0x2298, 0x434952434C4544204449564953494F4E20534C41534820),
  (0x2299, 0x434952434C454420444F54204F50455241544F5220),
  (0x229A, 0x434952434C45442052494E47204F50455241544F5220)]
def names_121 : List (Nat × Nat) := [
  (0x229B, 0x434952434C454420415354455249534B204F50455241544F5220),
  (0x229C, 0x434952434C454420455155414C5320),
  (0x229D, 0x434952434C4544204441534820),
  (0x229E, 0x5351554152454420504C555320),
  (0x229F, 0x53515541524544204D494E555320),
  (0x22A0, 0x535155415245442054494D455320),
  (0x22A1, 0x5351554152454420444F54204F50455241544F5220),
  (0x22A2, 0x5249474854205441434B20),
  (0x22A3, 0x4C454654205441434B20),
  (0x22A4, 0x444F574E205441434B20),
  (0x22A5, 0x5550205441434B20),
  (0x22A6, 0x415353455254494F4E20),
  (0x22A7, 0x4D4F44454C5320),
  (0x22A8, 0x5452554520),
  (0x22A9, 0x464F5243455320),
  (0x22AA, 0x545249504C4520564552544943414C20424152205249474854205455524E5354494C4520),
  (0x22AB, 0x444F55424C4520564552544943414C2042415220444F55424C45205249474854205455524E5354494C4520),
  (0x22AC, 0x444F4553204E4F542050524F564520),
  (0x22AD, 0x4E4F54205452554520),
  (0x22AE, 0x444F4553204E4F5420464F52434520),
  (0x22AF, 0x4E45474154454420444F55424C4520564552544943414C2042415220444F55424C45205249474854205455524E5354494C4520),
  (0x22B0, 0x505245434544455320554E4445522052454C4154494F4E20),
  (0x22B1, 0x535543434545445320554E4445522052454C4154494F4E20),
  (0x22B2, 0x4E4F524D414C2053554247524F5550204F4620),
  (0x22B3, 0x434F4E5441494E53204153204E4F524D414C2053554247524F555020),
  (0x22B4, 0x4E4F524D414C2053554247524F5550204F46204F5220455155414C20544F20),
  (0x22B5, 0x434F4E5441494E53204153204E4F524D414C2053554247524F5550204F5220455155414C20544F20),
  (0x22B6, 0x4F524947494E414C204F4620),
  (0x22B7, 0x494D414745204F4620),
  (0x22B8, 0x4D554C54494D415020),
  (0x22B9, 0x4845524D495449414E20434F4E4A5547415445204D415452495820),
  (0x22BA, 0x494E54455243414C41544520),
  (0x22BB, 0x584F5220),
  (0x22BC, 0x4E414E4420),
  (0x22BD, 0x4E4F5220),
  (0x22BE, 0x524947485420414E474C4520574954482041524320),
  (0x22BF, 0x524947485420545249414E474C4520),
  (0x22C0, 0x4E2D415259204C4F474943414C20414E4420),
  (0x22C1, 0x4E2D415259204C4F474943414C204F5220),
  (0x22C2, 0x4E2D41525920494E54455253454354494F4E20),
  (0x22C3, 0x4E2D41525920554E494F4E20),
  (0x22C4, 0x4449414D4F4E44204F50455241544F5220),
  (0x22C5, 0x444F54204F50455241544F5220),
  (0x22C6, 0x53544152204F50455241544F5220),
  (0x22C7, 0x4449564953494F4E2054494D455320),
  (0x22C8, 0x424F5754494520),
  (0x22C9, 0x4C454654204E4F524D414C20464143544F522053454D494449524543542050524F4455435420),
  (0x22CA, 0x5249474854204E4F524D414C20464143544F522053454D494449524543542050524F4455435420),
  (0x22CB, 0x4C4546542053454D494449524543542050524F4455435420),
  (0x22CC, 0x52494748542053454D494449524543542050524F4455435420),
  (0x22CD, 0x52455645525345442054494C444520455155414C5320),
  (0x22CE, 0x4355524C59204C4F474943414C204F5220),
  (0x22CF, 0x4355524C59204C4F474943414C20414E4420),
  (0x22D0, 0x444F55424C452053554253455420),
  (0x22D1, 0x444F55424C4520535550455253455420),
  (0x22D2, 0x444F55424C4520494E54455253454354494F4E20),
  (0x22D3, 0x444F55424C4520554E494F4E20),
  (0x22D4, 0x5049544348464F524B20),
  (0x22D5, 0x455155414C20414E4420504152414C4C454C20544F20),
  (0x22D6, 0x4C4553532D5448414E205749544820444F5420),
  (0x22D7, 0x475245415445522D5448414E205749544820444F5420),
  (0x22D8, 0x56455259204D554348204C4553532D5448414E20),
  (0x22D9, 0x56455259204D55434820475245415445522D5448414E20),
  (0x22DA, 0x4C4553532D5448414E20455155414C20544F204F5220475245415445522D5448414E20)]
def names_122 : List (Nat × Nat) := [
  (0x22DB, 0x475245415445522D5448414E20455155414C20544F204F52204C4553532D5448414E20),
  (0x22DC, 0x455155414C20544F204F52204C4553532D5448414E20),
  (0x22DD, 0x455155414C20544F204F5220475245415445522D5448414E20),
  (0x22DE, 0x455155414C20544F204F5220505245434544455320),
  (0x22DF, 0x455155414C20544F204F5220535543434545445320),
  (0x22E0, 0x444F4553204E4F542050524543454445204F5220455155414C20),
  (0x22E1, 0x444F4553204E4F542053554343454544204F5220455155414C20),
  (0x22E2, 0x4E4F542053515541524520494D414745204F46204F5220455155414C20544F20),
  (0x22E3, 0x4E4F5420535155415245204F524947494E414C204F46204F5220455155414C20544F20),
  (0x22E4, 0x53515541524520494D414745204F46204F52204E4F5420455155414C20544F20),
  (0x22E5, 0x535155415245204F524947494E414C204F46204F52204E4F5420455155414C20544F20),
  (0x22E6, 0x4C4553532D5448414E20425554204E4F54204551554956414C454E5420544F20),
  (0x22E7, 0x475245415445522D5448414E20425554204E4F54204551554956414C454E5420544F20),
  (0x22E8, 0x505245434544455320425554204E4F54204551554956414C454E5420544F20),
  (0x22E9, 0x535543434545445320425554204E4F54204551554956414C454E5420544F20),
  (0x22EA, 0x4E4F54204E4F524D414C2053554247524F5550204F4620),
  (0x22EB, 0x444F4553204E4F5420434F4E5441494E204153204E4F524D414C2053554247524F555020),
  (0x22EC, 0x4E4F54204E4F524D414C2053554247524F5550204F46204F5220455155414C20544F20),
  (0x22ED, 0x444F4553204E4F5420434F4E5441494E204153204E4F524D414C2053554247524F5550204F5220455155414C20),
  (0x22EE, 0x564552544943414C20454C4C495053495320),
  (0x22EF, 0x4D49444C494E4520484F52495A4F4E54414C20454C4C495053495320),
  (0x22F0, 0x555020524947485420444941474F4E414C20454C4C495053495320),
  (0x22F1, 0x444F574E20524947485420444941474F4E414C20454C4C495053495320),
  (0x22F2, 0x454C454D454E54204F462057495448204C4F4E4720484F52495A4F4E54414C205354524F4B4520),
  (0x22F3, 0x454C454D454E54204F46205749544820564552544943414C2042415220415420454E44204F4620484F52495A4F4E54414C205354524F4B4520),
  (0x22F4, 0x534D414C4C20454C454D454E54204F46205749544820564552544943414C2042415220415420454E44204F4620484F52495A4F4E54414C205354524F4B4520),
  (0x22F5, 0x454C454D454E54204F46205749544820444F542041424F564520),
  (0x22F6, 0x454C454D454E54204F462057495448204F56455242415220),
  (0x22F7, 0x534D414C4C20454C454D454E54204F462057495448204F56455242415220),
  (0x22F8, 0x454C454D454E54204F46205749544820554E44455242415220),
  (0x22F9, 0x454C454D454E54204F4620574954482054574F20484F52495A4F4E54414C205354524F4B455320),
  (0x22FA, 0x434F4E5441494E532057495448204C4F4E4720484F52495A4F4E54414C205354524F4B4520),
  (0x22FB, 0x434F4E5441494E53205749544820564552544943414C2042415220415420454E44204F4620484F52495A4F4E54414C205354524F4B4520),
  (0x22FC, 0x534D414C4C20434F4E5441494E53205749544820564552544943414C2042415220415420454E44204F4620484F52495A4F4E54414C205354524F4B4520),
  (0x22FD, 0x434F4E5441494E532057495448204F56455242415220),
  (0x22FE, 0x534D414C4C20434F4E5441494E532057495448204F56455242415220),
  (0x22FF, 0x5A204E4F544154494F4E20424147204D454D4245525348495020),
  (0x2300, 0x4449414D45544552205349474E20),
  (0x2301, 0x454C454354524943204152524F5720),
  (0x2302, 0x484F55534520),
  (0x2303, 0x5550204152524F574845414420),
  (0x2304, 0x444F574E204152524F574845414420),
  (0x2305, 0x50524F4A45435449564520),
  (0x2306, 0x504552535045435449564520),
  (0x2307, 0x57415659204C494E4520),
  (0x2308, 0x4C454654204345494C494E4720),
  (0x2309, 0x5249474854204345494C494E4720),
  (0x230A, 0x4C45465420464C4F4F5220),
  (0x230B, 0x524947485420464C4F4F5220),
  (0x230C, 0x424F54544F4D2052494748542043524F5020),
  (0x230D, 0x424F54544F4D204C4546542043524F5020),
  (0x230E, 0x544F502052494748542043524F5020),
  (0x230F, 0x544F50204C4546542043524F5020),
  (0x2310, 0x5245564552534544204E4F54205349474E20),
  (0x2311, 0x535155415245204C4F5A454E474520),
  (0x2312, 0x41524320),
  (0x2313, 0x5345474D454E5420),
  (0x2314, 0x534543544F5220),
  (0x2315, 0x54454C4550484F4E45205245434F5244455220),
  (0x2316, 0x504F534954494F4E20494E44494341544F5220),
  (0x2317, 0x56494557444154412053515541524520),
  (0x2318, 0x504C414345204F4620494E544552455354205349474E20),
  (0x2319, 0x5455524E4544204E4F54205349474E20),
  (0x231A, 0x574154434820)]
def names_123 : List (Nat × Nat) := [
  (0x231B, 0x484F5552474C41535320),
  (0x231C, 0x544F50204C45465420434F524E455220),
  (0x231D, 0x544F5020524947485420434F524E455220),
  (0x231E, 0x424F54544F4D204C45465420434F524E455220),
  (0x231F, 0x424F54544F4D20524947485420434F524E455220),
  (0x2320, 0x544F502048414C4620494E54454752414C20),
  (0x2321, 0x424F54544F4D2048414C4620494E54454752414C20),
  (0x2322, 0x46524F574E20),
  (0x2323, 0x534D494C4520),
  (0x2324, 0x5550204152524F5748454144204245545745454E2054574F20484F52495A4F4E54414C204241525320),
  (0x2325, 0x4F5054494F4E204B455920),
  (0x2326, 0x455241534520544F2054484520524947485420),
  (0x2327, 0x5820494E20412052454354414E474C4520424F5820),
  (0x2328, 0x4B4559424F41524420),
  (0x2329, 0x4C4546542D504F494E54494E4720414E474C4520425241434B455420),
  (0x232A, 0x52494748542D504F494E54494E4720414E474C4520425241434B455420),
  (0x232B, 0x455241534520544F20544845204C45465420),
  (0x232C, 0x42454E5A454E452052494E4720),
  (0x232D, 0x43594C494E4452494349545920),
  (0x232E, 0x414C4C2041524F554E442D50524F46494C4520),
  (0x232F, 0x53594D4D4554525920),
  (0x2330, 0x544F54414C2052554E4F555420),
  (0x2331, 0x44494D454E53494F4E204F524947494E20),
  (0x2332, 0x434F4E4943414C20544150455220),
  (0x2333, 0x534C4F504520),
  (0x2334, 0x434F554E544552424F524520),
  (0x2335, 0x434F554E54455253494E4B20),
  (0x2336, 0x41504C2046554E4354494F4E414C2053594D424F4C20492D4245414D20),
  (0x2337, 0x41504C2046554E4354494F4E414C2053594D424F4C20535155495348205155414420),
  (0x2338, 0x41504C2046554E4354494F4E414C2053594D424F4C205155414420455155414C20),
  (0x2339, 0x41504C2046554E4354494F4E414C2053594D424F4C20515541442044495649444520),
  (0x233A, 0x41504C2046554E4354494F4E414C2053594D424F4C2051554144204449414D4F4E4420),
  (0x233B, 0x41504C2046554E4354494F4E414C2053594D424F4C2051554144204A4F5420),
  (0x233C, 0x41504C2046554E4354494F4E414C2053594D424F4C205155414420434952434C4520),
  (0x233D, 0x41504C2046554E4354494F4E414C2053594D424F4C20434952434C45205354494C4520),
  (0x233E, 0x41504C2046554E4354494F4E414C2053594D424F4C20434952434C45204A4F5420),
  (0x233F, 0x41504C2046554E4354494F4E414C2053594D424F4C20534C4153482042415220),
  (0x2340, 0x41504C2046554E4354494F4E414C2053594D424F4C204241434B534C4153482042415220),
  (0x2341, 0x41504C2046554E4354494F4E414C2053594D424F4C205155414420534C41534820),
  (0x2342, 0x41504C2046554E4354494F4E414C2053594D424F4C2051554144204241434B534C41534820),
  (0x2343, 0x41504C2046554E4354494F4E414C2053594D424F4C2051554144204C4553532D5448414E20),
  (0x2344, 0x41504C2046554E4354494F4E414C2053594D424F4C205155414420475245415445522D5448414E20),
  (0x2345, 0x41504C2046554E4354494F4E414C2053594D424F4C204C45465457415244532056414E4520),
  (0x2346, 0x41504C2046554E4354494F4E414C2053594D424F4C20524947485457415244532056414E4520),
  (0x2347, 0x41504C2046554E4354494F4E414C2053594D424F4C2051554144204C4546545741524453204152524F5720),
  (0x2348, 0x41504C2046554E4354494F4E414C2053594D424F4C20515541442052494748545741524453204152524F5720),
  (0x2349, 0x41504C2046554E4354494F4E414C2053594D424F4C20434952434C45204241434B534C41534820),
  (0x234A, 0x41504C2046554E4354494F4E414C2053594D424F4C20444F574E205441434B20554E44455242415220),
  (0x234B, 0x41504C2046554E4354494F4E414C2053594D424F4C2044454C5441205354494C4520),
  (0x234C, 0x41504C2046554E4354494F4E414C2053594D424F4C205155414420444F574E20434152455420),
  (0x234D, 0x41504C2046554E4354494F4E414C2053594D424F4C20515541442044454C544120),
  (0x234E, 0x41504C2046554E4354494F4E414C2053594D424F4C20444F574E205441434B204A4F5420),
  (0x234F, 0x41504C2046554E4354494F4E414C2053594D424F4C20555057415244532056414E4520),
  (0x2350, 0x41504C2046554E4354494F4E414C2053594D424F4C20515541442055505741524453204152524F5720),
  (0x2351, 0x41504C2046554E4354494F4E414C2053594D424F4C205550205441434B204F56455242415220),
  (0x2352, 0x41504C2046554E4354494F4E414C2053594D424F4C2044454C205354494C4520),
  (0x2353, 0x41504C2046554E4354494F4E414C2053594D424F4C205155414420555020434152455420),
  (0x2354, 0x41504C2046554E4354494F4E414C2053594D424F4C20515541442044454C20),
  (0x2355, 0x41504C2046554E4354494F4E414C2053594D424F4C205550205441434B204A4F5420),
  (0x2356, 0x41504C2046554E4354494F4E414C2053594D424F4C20444F574E57415244532056414E4520),
  (0x2357, 0x41504C2046554E4354494F4E414C2053594D424F4C205155414420444F574E5741524453204152524F5720),
  (0x2358, 0x41504C2046554E4354494F4E414C2053594D424F4C2051554F544520554E44455242415220),
  (0x2359, 0x41504C2046554E4354494F4E414C2053594D424F4C2044454C544120554E44455242415220),
  (0x235A, 0x41504C2046554E4354494F4E414C2053594D424F4C204449414D4F4E4420554E44455242415220)]
def names_124 : List (Nat × Nat) := [
  (0x235B, 0x41504C2046554E4354494F4E414C2053594D424F4C204A4F5420554E44455242415220),
  (0x235C, 0x41504C2046554E4354494F4E414C2053594D424F4C20434952434C4520554E44455242415220),
  (0x235D, 0x41504C2046554E4354494F4E414C2053594D424F4C2055502053484F45204A4F5420),
  (0x235E, 0x41504C2046554E4354494F4E414C2053594D424F4C2051554F5445205155414420),
  (0x235F, 0x41504C2046554E4354494F4E414C2053594D424F4C20434952434C45205354415220),
  (0x2360, 0x41504C2046554E4354494F4E414C2053594D424F4C205155414420434F4C4F4E20),
  (0x2361, 0x41504C2046554E4354494F4E414C2053594D424F4C205550205441434B2044494145524553495320),
  (0x2362, 0x41504C2046554E4354494F4E414C2053594D424F4C2044454C2044494145524553495320),
  (0x2363, 0x41504C2046554E4354494F4E414C2053594D424F4C20535441522044494145524553495320),
  (0x2364, 0x41504C2046554E4354494F4E414C2053594D424F4C204A4F542044494145524553495320),
  (0x2365, 0x41504C2046554E4354494F4E414C2053594D424F4C20434952434C452044494145524553495320),
  (0x2366, 0x41504C2046554E4354494F4E414C2053594D424F4C20444F574E2053484F45205354494C4520),
  (0x2367, 0x41504C2046554E4354494F4E414C2053594D424F4C204C4546542053484F45205354494C4520),
  (0x2368, 0x41504C2046554E4354494F4E414C2053594D424F4C2054494C44452044494145524553495320),
  (0x2369, 0x41504C2046554E4354494F4E414C2053594D424F4C20475245415445522D5448414E2044494145524553495320),
  (0x236A, 0x41504C2046554E4354494F4E414C2053594D424F4C20434F4D4D412042415220),
  (0x236B, 0x41504C2046554E4354494F4E414C2053594D424F4C2044454C2054494C444520),
  (0x236C, 0x41504C2046554E4354494F4E414C2053594D424F4C205A494C444520),
  (0x236D, 0x41504C2046554E4354494F4E414C2053594D424F4C205354494C452054494C444520),
  (0x236E, 0x41504C2046554E4354494F4E414C2053594D424F4C2053454D49434F4C4F4E20554E44455242415220),
  (0x236F, 0x41504C2046554E4354494F4E414C2053594D424F4C2051554144204E4F5420455155414C20),
  (0x2370, 0x41504C2046554E4354494F4E414C2053594D424F4C2051554144205155455354494F4E20),
  (0x2371, 0x41504C2046554E4354494F4E414C2053594D424F4C20444F574E2043415245542054494C444520),
  (0x2372, 0x41504C2046554E4354494F4E414C2053594D424F4C2055502043415245542054494C444520),
  (0x2373, 0x41504C2046554E4354494F4E414C2053594D424F4C20494F544120),
  (0x2374, 0x41504C2046554E4354494F4E414C2053594D424F4C2052484F20),
  (0x2375, 0x41504C2046554E4354494F4E414C2053594D424F4C204F4D45474120),
  (0x2376, 0x41504C2046554E4354494F4E414C2053594D424F4C20414C50484120554E44455242415220),
  (0x2377, 0x41504C2046554E4354494F4E414C2053594D424F4C20455053494C4F4E20554E44455242415220),
  (0x2378, 0x41504C2046554E4354494F4E414C2053594D424F4C20494F544120554E44455242415220),
  (0x2379, 0x41504C2046554E4354494F4E414C2053594D424F4C204F4D45474120554E44455242415220),
  (0x237A, 0x41504C2046554E4354494F4E414C2053594D424F4C20414C50484120),
  (0x237B, 0x4E4F5420434845434B204D41524B20),
  (0x237C, 0x524947485420414E474C45205749544820444F574E5741524453205A49475A4147204152524F5720),
  (0x237D, 0x53484F554C4445524544204F50454E20424F5820),
  (0x237E, 0x42454C4C2053594D424F4C20),
  (0x237F, 0x564552544943414C204C494E452057495448204D4944444C4520444F5420),
  (0x2380, 0x494E53455254494F4E2053594D424F4C20),
  (0x2381, 0x434F4E54494E554F555320554E4445524C494E452053594D424F4C20),
  (0x2382, 0x444953434F4E54494E554F555320554E4445524C494E452053594D424F4C20),
  (0x2383, 0x454D5048415349532053594D424F4C20),
  (0x2384, 0x434F4D504F534954494F4E2053594D424F4C20),
  (0x2385, 0x57484954452053515541524520574954482043454E54524520564552544943414C204C494E4520),
  (0x2386, 0x454E5445522053594D424F4C20),
  (0x2387, 0x414C5445524E4154495645204B45592053594D424F4C20),
  (0x2388, 0x48454C4D2053594D424F4C20),
  (0x2389, 0x434952434C454420484F52495A4F4E54414C204241522057495448204E4F54434820),
  (0x238A, 0x434952434C454420545249414E474C4520444F574E20),
  (0x238B, 0x42524F4B454E20434952434C452057495448204E4F52544857455354204152524F5720),
  (0x238C, 0x554E444F2053594D424F4C20),
  (0x238D, 0x4D4F4E4F535441424C452053594D424F4C20),
  (0x238E, 0x485953544552455349532053594D424F4C20),
  (0x238F, 0x4F50454E2D434952435549542D4F555450555420482D545950452053594D424F4C20),
  (0x2390, 0x4F50454E2D434952435549542D4F5554505554204C2D545950452053594D424F4C20),
  (0x2391, 0x504153534956452D50554C4C2D444F574E2D4F55545055542053594D424F4C20),
  (0x2392, 0x504153534956452D50554C4C2D55502D4F55545055542053594D424F4C20),
  (0x2393, 0x4449524543542043555252454E542053594D424F4C20464F524D2054574F20),
  (0x2394, 0x534F4654574152452D46554E4354494F4E2053594D424F4C20),
  (0x2395, 0x41504C2046554E4354494F4E414C2053594D424F4C205155414420),
  (0x2396, 0x444543494D414C20534550415241544F52204B45592053594D424F4C20),
  (0x2397, 0x50524556494F5553205041474520),
  (0x2398, 0x4E455854205041474520),
  (0x2399, 0x5052494E542053435245454E2053594D424F4C20),
  (0x239A, 0x434C4541522053435245454E2053594D424F4C20)]
def names_125 : List (Nat × Nat) := [
  (0x239B, 0x4C45465420504152454E54484553495320555050455220484F4F4B20),
  (0x239C, 0x4C45465420504152454E54484553495320455854454E53494F4E20),
  (0x239D, 0x4C45465420504152454E544845534953204C4F57455220484F4F4B20),
  (0x239E, 0x524947485420504152454E54484553495320555050455220484F4F4B20),
  (0x239F, 0x524947485420504152454E54484553495320455854454E53494F4E20),
  (0x23A0, 0x524947485420504152454E544845534953204C4F57455220484F4F4B20),
  (0x23A1, 0x4C4546542053515541524520425241434B455420555050455220434F524E455220),
  (0x23A2, 0x4C4546542053515541524520425241434B455420455854454E53494F4E20),
  (0x23A3, 0x4C4546542053515541524520425241434B4554204C4F57455220434F524E455220),
  (0x23A4, 0x52494748542053515541524520425241434B455420555050455220434F524E455220),
  (0x23A5, 0x52494748542053515541524520425241434B455420455854454E53494F4E20),
  (0x23A6, 0x52494748542053515541524520425241434B4554204C4F57455220434F524E455220),
  (0x23A7, 0x4C454654204355524C5920425241434B455420555050455220484F4F4B20),
  (0x23A8, 0x4C454654204355524C5920425241434B4554204D4944444C4520504945434520),
  (0x23A9, 0x4C454654204355524C5920425241434B4554204C4F57455220484F4F4B20),
  (0x23AA, 0x4355524C5920425241434B455420455854454E53494F4E20),
  (0x23AB, 0x5249474854204355524C5920425241434B455420555050455220484F4F4B20),
  (0x23AC, 0x5249474854204355524C5920425241434B4554204D4944444C4520504945434520),
  (0x23AD, 0x5249474854204355524C5920425241434B4554204C4F57455220484F4F4B20),
  (0x23AE, 0x494E54454752414C20455854454E53494F4E20),
  (0x23AF, 0x484F52495A4F4E54414C204C494E4520455854454E53494F4E20),
  (0x23B0, 0x5550504552204C454654204F52204C4F574552205249474854204355524C5920425241434B45542053454354494F4E20),
  (0x23B1, 0x5550504552205249474854204F52204C4F574552204C454654204355524C5920425241434B45542053454354494F4E20),
  (0x23B2, 0x53554D4D4154494F4E20544F5020),
  (0x23B3, 0x53554D4D4154494F4E20424F54544F4D20),
  (0x23B4, 0x544F502053515541524520425241434B455420),
  (0x23B5, 0x424F54544F4D2053515541524520425241434B455420),
  (0x23B6, 0x424F54544F4D2053515541524520425241434B4554204F56455220544F502053515541524520425241434B455420),
  (0x23B7, 0x5241444943414C2053594D424F4C20424F54544F4D20),
  (0x23B8, 0x4C45465420564552544943414C20424F58204C494E4520),
  (0x23B9, 0x524947485420564552544943414C20424F58204C494E4520),
  (0x23BA, 0x484F52495A4F4E54414C205343414E204C494E452D3120),
  (0x23BB, 0x484F52495A4F4E54414C205343414E204C494E452D3320),
  (0x23BC, 0x484F52495A4F4E54414C205343414E204C494E452D3720),
  (0x23BD, 0x484F52495A4F4E54414C205343414E204C494E452D3920),
  (0x23BE, 0x44454E5449535452592053594D424F4C204C4947485420564552544943414C20414E4420544F5020524947485420),
  (0x23BF, 0x44454E5449535452592053594D424F4C204C4947485420564552544943414C20414E4420424F54544F4D20524947485420),
  (0x23C0, 0x44454E5449535452592053594D424F4C204C4947485420564552544943414C205749544820434952434C4520),
  (0x23C1, 0x44454E5449535452592053594D424F4C204C4947485420444F574E20414E4420484F52495A4F4E54414C205749544820434952434C4520),
  (0x23C2, 0x44454E5449535452592053594D424F4C204C4947485420555020414E4420484F52495A4F4E54414C205749544820434952434C4520),
  (0x23C3, 0x44454E5449535452592053594D424F4C204C4947485420564552544943414C205749544820545249414E474C4520),
  (0x23C4, 0x44454E5449535452592053594D424F4C204C4947485420444F574E20414E4420484F52495A4F4E54414C205749544820545249414E474C4520),
  (0x23C5, 0x44454E5449535452592053594D424F4C204C4947485420555020414E4420484F52495A4F4E54414C205749544820545249414E474C4520),
  (0x23C6, 0x44454E5449535452592053594D424F4C204C4947485420564552544943414C20414E44205741564520),
  (0x23C7, 0x44454E5449535452592053594D424F4C204C4947485420444F574E20414E4420484F52495A4F4E54414C2057495448205741564520),
  (0x23C8, 0x44454E5449535452592053594D424F4C204C4947485420555020414E4420484F52495A4F4E54414C2057495448205741564520),
  (0x23C9, 0x44454E5449535452592053594D424F4C204C4947485420444F574E20414E4420484F52495A4F4E54414C20),
  (0x23CA, 0x44454E5449535452592053594D424F4C204C4947485420555020414E4420484F52495A4F4E54414C20),
  (0x23CB, 0x44454E5449535452592053594D424F4C204C4947485420564552544943414C20414E4420544F50204C45465420),
  (0x23CC, 0x44454E5449535452592053594D424F4C204C4947485420564552544943414C20414E4420424F54544F4D204C45465420),
  (0x23CD, 0x53515541524520464F4F5420),
  (0x23CE, 0x52455455524E2053594D424F4C20),
  (0x23CF, 0x454A4543542053594D424F4C20),
  (0x23D0, 0x564552544943414C204C494E4520455854454E53494F4E20),
  (0x23D1, 0x4D4554524943414C20425245564520),
  (0x23D2, 0x4D4554524943414C204C4F4E47204F5645522053484F525420),
  (0x23D3, 0x4D4554524943414C2053484F5254204F564552204C4F4E4720),
  (0x23D4, 0x4D4554524943414C204C4F4E47204F5645522054574F2053484F52545320),
  (0x23D5, 0x4D4554524943414C2054574F2053484F525453204F564552204C4F4E4720),
  (0x23D6, 0x4D4554524943414C2054574F2053484F525453204A4F494E454420),
  (0x23D7, 0x4D4554524943414C2054524953454D4520),
  (0x23D8, 0x4D4554524943414C20544554524153454D4520),
  (0x23D9, 0x4D4554524943414C2050454E544153454D4520),
  (0x23DA, 0x45415254482047524F554E4420)]
def names_126 : List (Nat × Nat) := [
  (0x23DB, 0x4655534520),
  (0x23DC, 0x544F5020504152454E54484553495320),
  (0x23DD, 0x424F54544F4D20504152454E54484553495320),
  (0x23DE, 0x544F50204355524C5920425241434B455420),
  (0x23DF, 0x424F54544F4D204355524C5920425241434B455420),
  (0x23E0, 0x544F5020544F52544F495345205348454C4C20425241434B455420),
  (0x23E1, 0x424F54544F4D20544F52544F495345205348454C4C20425241434B455420),
  (0x23E2, 0x57484954452054524150455A49554D20),
  (0x23E3, 0x42454E5A454E452052494E47205749544820434952434C4520),
  (0x23E4, 0x53545241494748544E45535320),
  (0x23E5, 0x464C41544E45535320),
  (0x23E6, 0x41432043555252454E5420),
  (0x23E7, 0x454C454354524943414C20494E54455253454354494F4E20),
  (0x23E8, 0x444543494D414C204558504F4E454E542053594D424F4C20),
  (0x23E9, 0x424C41434B2052494748542D504F494E54494E4720444F55424C4520545249414E474C4520),
  (0x23EA, 0x424C41434B204C4546542D504F494E54494E4720444F55424C4520545249414E474C4520),
  (0x23EB, 0x424C41434B2055502D504F494E54494E4720444F55424C4520545249414E474C4520),
  (0x23EC, 0x424C41434B20444F574E2D504F494E54494E4720444F55424C4520545249414E474C4520),
  (0x23ED, 0x424C41434B2052494748542D504F494E54494E4720444F55424C4520545249414E474C45205749544820564552544943414C2042415220),
  (0x23EE, 0x424C41434B204C4546542D504F494E54494E4720444F55424C4520545249414E474C45205749544820564552544943414C2042415220),
  (0x23EF, 0x424C41434B2052494748542D504F494E54494E4720545249414E474C45205749544820444F55424C4520564552544943414C2042415220),
  (0x23F0, 0x414C41524D20434C4F434B20),
  (0x23F1, 0x53544F50574154434820),
  (0x23F2, 0x54494D455220434C4F434B20),
  (0x23F3, 0x484F5552474C415353205749544820464C4F57494E472053414E4420),
  (0x23F4, 0x424C41434B204D454449554D204C4546542D504F494E54494E4720545249414E474C4520),
  (0x23F5, 0x424C41434B204D454449554D2052494748542D504F494E54494E4720545249414E474C4520),
  (0x23F6, 0x424C41434B204D454449554D2055502D504F494E54494E4720545249414E474C4520),
  (0x23F7, 0x424C41434B204D454449554D20444F574E2D504F494E54494E4720545249414E474C4520),
  (0x23F8, 0x444F55424C4520564552544943414C2042415220),
  (0x23F9, 0x424C41434B2053515541524520464F522053544F5020),
  (0x23FA, 0x424C41434B20434952434C4520464F52205245434F524420),
  (0x23FB, 0x504F5745522053594D424F4C20),
  (0x23FC, 0x504F574552204F4E2D4F46462053594D424F4C20),
  (0x23FD, 0x504F574552204F4E2053594D424F4C20),
  (0x23FE, 0x504F57455220534C4545502053594D424F4C20),
  (0x23FF, 0x4F42534552564552204559452053594D424F4C20),
  (0x2400, 0x53594D424F4C20464F52204E554C4C20),
  (0x2401, 0x53594D424F4C20464F52205354415254204F462048454144494E4720),
  (0x2402, 0x53594D424F4C20464F52205354415254204F46205445585420),
  (0x2403, 0x53594D424F4C20464F5220454E44204F46205445585420),
  (0x2404, 0x53594D424F4C20464F5220454E44204F46205452414E534D495353494F4E20),
  (0x2405, 0x53594D424F4C20464F5220454E515549525920),
  (0x2406, 0x53594D424F4C20464F522041434B4E4F574C4544474520),
  (0x2407, 0x53594D424F4C20464F522042454C4C20),
  (0x2408, 0x53594D424F4C20464F52204241434B535041434520),
  (0x2409, 0x53594D424F4C20464F5220484F52495A4F4E54414C20544142554C4154494F4E20),
  (0x240A, 0x53594D424F4C20464F52204C494E45204645454420),
  (0x240B, 0x53594D424F4C20464F5220564552544943414C20544142554C4154494F4E20),
  (0x240C, 0x53594D424F4C20464F5220464F524D204645454420),
  (0x240D, 0x53594D424F4C20464F522043415252494147452052455455524E20),
  (0x240E, 0x53594D424F4C20464F52205348494654204F555420),
  (0x240F, 0x53594D424F4C20464F5220534849465420494E20),
  (0x2410, 0x53594D424F4C20464F522044415441204C494E4B2045534341504520),
  (0x2411, 0x53594D424F4C20464F522044455649434520434F4E54524F4C204F4E4520),
  (0x2412, 0x53594D424F4C20464F522044455649434520434F4E54524F4C2054574F20),
  (0x2413, 0x53594D424F4C20464F522044455649434520434F4E54524F4C20544852454520),
  (0x2414, 0x53594D424F4C20464F522044455649434520434F4E54524F4C20464F555220),
  (0x2415, 0x53594D424F4C20464F52204E454741544956452041434B4E4F574C4544474520),
  (0x2416, 0x53594D424F4C20464F522053594E4348524F4E4F55532049444C4520),
  (0x2417, 0x53594D424F4C20464F5220454E44204F46205452414E534D495353494F4E20424C4F434B20),
  (0x2418, 0x53594D424F4C20464F522043414E43454C20),
  (0x2419, 0x53594D424F4C20464F5220454E44204F46204D454449554D20),
  (0x241A, 0x53594D424F4C20464F52205355425354495455544520)]
def names_127 : List (Nat × Nat) := [
  (0x241B, 0x53594D424F4C20464F522045534341504520),
  (0x241C, 0x53594D424F4C20464F522046494C4520534550415241544F5220),
  (0x241D, 0x53594D424F4C20464F522047524F555020534550415241544F5220),
  (0x241E, 0x53594D424F4C20464F52205245434F524420534550415241544F5220),
  (0x241F, 0x53594D424F4C20464F5220554E495420534550415241544F5220),
  (0x2420, 0x53594D424F4C20464F5220535041434520),
  (0x2421, 0x53594D424F4C20464F522044454C45544520),
  (0x2422, 0x424C414E4B2053594D424F4C20),
  (0x2423, 0x4F50454E20424F5820),
  (0x2424, 0x53594D424F4C20464F52204E45574C494E4520),
  (0x2425, 0x53594D424F4C20464F522044454C45544520464F524D2054574F20),
  (0x2426, 0x53594D424F4C20464F52205355425354495455544520464F524D2054574F20),
  (0x2440, 0x4F435220484F4F4B20),
  (0x2441, 0x4F435220434841495220),
  (0x2442, 0x4F435220464F524B20),
  (0x2443, 0x4F435220494E56455254454420464F524B20),
  (0x2444, 0x4F43522042454C54204255434B4C4520),
  (0x2445, 0x4F435220424F572054494520),
  (0x2446, 0x4F4352204252414E43482042414E4B204944454E54494649434154494F4E20),
  (0x2447, 0x4F435220414D4F554E54204F4620434845434B20),
  (0x2448, 0x4F4352204441534820),
  (0x2449, 0x4F435220435553544F4D4552204143434F554E54204E554D42455220),
  (0x244A, 0x4F435220444F55424C45204241434B534C41534820),
  (0x2460, 0x434952434C4544204449474954204F4E4520),
  (0x2461, 0x434952434C45442044494749542054574F20),
  (0x2462, 0x434952434C454420444947495420544852454520),
  (0x2463, 0x434952434C454420444947495420464F555220),
  (0x2464, 0x434952434C4544204449474954204649564520),
  (0x2465, 0x434952434C45442044494749542053495820),
  (0x2466, 0x434952434C454420444947495420534556454E20),
  (0x2467, 0x434952434C454420444947495420454947485420),
  (0x2468, 0x434952434C4544204449474954204E494E4520),
  (0x2469, 0x434952434C4544204E554D4245522054454E20),
  (0x246A, 0x434952434C4544204E554D42455220454C4556454E20),
  (0x246B, 0x434952434C4544204E554D424552205457454C564520),
  (0x246C, 0x434952434C4544204E554D42455220544849525445454E20),
  (0x246D, 0x434952434C4544204E554D42455220464F55525445454E20),
  (0x246E, 0x434952434C4544204E554D424552204649465445454E20),
  (0x246F, 0x434952434C4544204E554D424552205349585445454E20),
  (0x2470, 0x434952434C4544204E554D42455220534556454E5445454E20),
  (0x2471, 0x434952434C4544204E554D42455220454947485445454E20),
  (0x2472, 0x434952434C4544204E554D424552204E494E455445454E20),
  (0x2473, 0x434952434C4544204E554D424552205457454E545920),
  (0x2474, 0x504152454E54484553495A4544204449474954204F4E4520),
  (0x2475, 0x504152454E54484553495A45442044494749542054574F20),
  (0x2476, 0x504152454E54484553495A454420444947495420544852454520),
  (0x2477, 0x504152454E54484553495A454420444947495420464F555220),
  (0x2478, 0x504152454E54484553495A4544204449474954204649564520),
  (0x2479, 0x504152454E54484553495A45442044494749542053495820),
  (0x247A, 0x504152454E54484553495A454420444947495420534556454E20),
  (0x247B, 0x504152454E54484553495A454420444947495420454947485420),
  (0x247C, 0x504152454E54484553495A4544204449474954204E494E4520),
  (0x247D, 0x504152454E54484553495A4544204E554D4245522054454E20),
  (0x247E, 0x504152454E54484553495A4544204E554D42455220454C4556454E20),
  (0x247F, 0x504152454E54484553495A4544204E554D424552205457454C564520),
  (0x2480, 0x504152454E54484553495A4544204E554D42455220544849525445454E20),
  (0x2481, 0x504152454E54484553495A4544204E554D42455220464F55525445454E20),
  (0x2482, 0x504152454E54484553495A4544204E554D424552204649465445454E20),
  (0x2483, 0x504152454E54484553495A4544204E554D424552205349585445454E20),
  (0x2484, 0x504152454E54484553495A4544204E554D42455220534556454E5445454E20),
  (0x2485, 0x504152454E54484553495A4544204E554D42455220454947485445454E20),
  (0x2486, 0x504152454E54484553495A4544204E554D424552204E494E455445454E20),
  (0x2487, 0x504152454E54484553495A4544204E554D424552205457454E545920),
  (0x2488, 0x4449474954204F4E452046554C4C2053544F5020)]
def names_128 : List (Nat × Nat) := [
  (0x2489, 0x44494749542054574F2046554C4C2053544F5020),
  (0x248A, 0x44494749542054485245452046554C4C2053544F5020),
  (0x248B, 0x444947495420464F55522046554C4C2053544F5020),
  (0x248C, 0x444947495420464956452046554C4C2053544F5020),
  (0x248D, 0x4449474954205349582046554C4C2053544F5020),
  (0x248E, 0x444947495420534556454E2046554C4C2053544F5020),
  (0x248F, 0x44494749542045494748542046554C4C2053544F5020),
  (0x2490, 0x4449474954204E494E452046554C4C2053544F5020),
  (0x2491, 0x4E554D4245522054454E2046554C4C2053544F5020),
  (0x2492, 0x4E554D42455220454C4556454E2046554C4C2053544F5020),
  (0x2493, 0x4E554D424552205457454C56452046554C4C2053544F5020),
  (0x2494, 0x4E554D42455220544849525445454E2046554C4C2053544F5020),
  (0x2495, 0x4E554D42455220464F55525445454E2046554C4C2053544F5020),
  (0x2496, 0x4E554D424552204649465445454E2046554C4C2053544F5020),
  (0x2497, 0x4E554D424552205349585445454E2046554C4C2053544F5020),
  (0x2498, 0x4E554D42455220534556454E5445454E2046554C4C2053544F5020),
  (0x2499, 0x4E554D42455220454947485445454E2046554C4C2053544F5020),
  (0x249A, 0x4E554D424552204E494E455445454E2046554C4C2053544F5020),
  (0x249B, 0x4E554D424552205457454E54592046554C4C2053544F5020),
  (0x249C, 0x504152454E54484553495A4544204C4154494E20534D414C4C204C4554544552204120),
  (0x249D, 0x504152454E54484553495A4544204C4154494E20534D414C4C204C4554544552204220),
  (0x249E, 0x504152454E54484553495A4544204C4154494E20534D414C4C204C4554544552204320),
  (0x249F, 0x504152454E54484553495A4544204C4154494E20534D414C4C204C4554544552204420),
  (0x24A0, 0x504152454E54484553495A4544204C4154494E20534D414C4C204C4554544552204520),
  (0x24A1, 0x504152454E54484553495A4544204C4154494E20534D414C4C204C4554544552204620),
  (0x24A2, 0x504152454E54484553495A4544204C4154494E20534D414C4C204C4554544552204720),
  (0x24A3, 0x504152454E54484553495A4544204C4154494E20534D414C4C204C4554544552204820),
  (0x24A4, 0x504152454E54484553495A4544204C4154494E20534D414C4C204C4554544552204920),
  (0x24A5, 0x504152454E54484553495A4544204C4154494E20534D414C4C204C4554544552204A20),
  (0x24A6, 0x504152454E54484553495A4544204C4154494E20534D414C4C204C4554544552204B20),
  (0x24A7, 0x504152454E54484553495A4544204C4154494E20534D414C4C204C4554544552204C20),
  (0x24A8, 0x504152454E54484553495A4544204C4154494E20534D414C4C204C4554544552204D20),
  (0x24A9, 0x504152454E54484553495A4544204C4154494E20534D414C4C204C4554544552204E20),
  (0x24AA, 0x504152454E54484553495A4544204C4154494E20534D414C4C204C4554544552204F20),
  (0x24AB, 0x504152454E54484553495A4544204C4154494E20534D414C4C204C4554544552205020),
  (0x24AC, 0x504152454E54484553495A4544204C4154494E20534D414C4C204C4554544552205120),
  (0x24AD, 0x504152454E54484553495A4544204C4154494E20534D414C4C204C4554544552205220),
  (0x24AE, 0x504152454E54484553495A4544204C4154494E20534D414C4C204C4554544552205320),
  (0x24AF, 0x504152454E54484553495A4544204C4154494E20534D414C4C204C4554544552205420),
  (0x24B0, 0x504152454E54484553495A4544204C4154494E20534D414C4C204C4554544552205520),
  (0x24B1, 0x504152454E54484553495A4544204C4154494E20534D414C4C204C4554544552205620),
  (0x24B2, 0x504152454E54484553495A4544204C4154494E20534D414C4C204C4554544552205720),
  (0x24B3, 0x504152454E54484553495A4544204C4154494E20534D414C4C204C4554544552205820),
  (0x24B4, 0x504152454E54484553495A4544204C4154494E20534D414C4C204C4554544552205920),
  (0x24B5, 0x504152454E54484553495A4544204C4154494E20534D414C4C204C4554544552205A20),
  (0x24B6, 0x434952434C4544204C4154494E204341504954414C204C4554544552204120),
  (0x24B7, 0x434952434C4544204C4154494E204341504954414C204C4554544552204220),
  (0x24B8, 0x434952434C4544204C4154494E204341504954414C204C4554544552204320),
  (0x24B9, 0x434952434C4544204C4154494E204341504954414C204C4554544552204420),
  (0x24BA, 0x434952434C4544204C4154494E204341504954414C204C4554544552204520),
  (0x24BB, 0x434952434C4544204C4154494E204341504954414C204C4554544552204620),
  (0x24BC, 0x434952434C4544204C4154494E204341504954414C204C4554544552204720),
  (0x24BD, 0x434952434C4544204C4154494E204341504954414C204C4554544552204820),
  (0x24BE, 0x434952434C4544204C4154494E204341504954414C204C4554544552204920),
  (0x24BF, 0x434952434C4544204C4154494E204341504954414C204C4554544552204A20),
  (0x24C0, 0x434952434C4544204C4154494E204341504954414C204C4554544552204B20),
  (0x24C1, 0x434952434C4544204C4154494E204341504954414C204C4554544552204C20),
  (0x24C2, 0x434952434C4544204C4154494E204341504954414C204C4554544552204D20),
  (0x24C3, 0x434952434C4544204C4154494E204341504954414C204C4554544552204E20),
  (0x24C4, 0x434952434C4544204C4154494E204341504954414C204C4554544552204F20),
  (0x24C5, 0x434952434C4544204C4154494E204341504954414C204C4554544552205020),
  (0x24C6, 0x434952434C4544204C4154494E204341504954414C204C4554544552205120),
  (0x24C7, 0x434952434C4544204C4154494E204341504954414C204C4554544552205220),
  (0x24C8, 0x434952434C4544204C4154494E204341504954414C204C4554544552205320)]
def names_129 : List (Nat × Nat) := [
  (0x24C9, 0x434952434C4544204C4154494E204341504954414C204C4554544552205420),
  (0x24CA, 0x434952434C4544204C4154494E204341504954414C204C4554544552205520),
  (0x24CB, 0x434952434C4544204C4154494E204341504954414C204C4554544552205620),
  (0x24CC, 0x434952434C4544204C4154494E204341504954414C204C4554544552205720),
  (0x24CD, 0x434952434C4544204C4154494E204341504954414C204C4554544552205820),
  (0x24CE, 0x434952434C4544204C4154494E204341504954414C204C4554544552205920),
  (0x24CF, 0x434952434C4544204C4154494E204341504954414C204C4554544552205A20),
  (0x24D0, 0x434952434C4544204C4154494E20534D414C4C204C4554544552204120),
  (0x24D1, 0x434952434C4544204C4154494E20534D414C4C204C4554544552204220),
  (0x24D2, 0x434952434C4544204C4154494E20534D414C4C204C4554544552204320),
  (0x24D3, 0x434952434C4544204C4154494E20534D414C4C204C4554544552204420),
  (0x24D4, 0x434952434C4544204C4154494E20534D414C4C204C4554544552204520),
  (0x24D5, 0x434952434C4544204C4154494E20534D414C4C204C4554544552204620),
  (0x24D6, 0x434952434C4544204C4154494E20534D414C4C204C4554544552204720),
  (0x24D7, 0x434952434C4544204C4154494E20534D414C4C204C4554544552204820),
  (0x24D8, 0x434952434C4544204C4154494E20534D414C4C204C4554544552204920),
  (0x24D9, 0x434952434C4544204C4154494E20534D414C4C204C4554544552204A20),
  (0x24DA, 0x434952434C4544204C4154494E20534D414C4C204C4554544552204B20),
  (0x24DB, 0x434952434C4544204C4154494E20534D414C4C204C4554544552204C20),
  (0x24DC, 0x434952434C4544204C4154494E20534D414C4C204C4554544552204D20),
  (0x24DD, 0x434952434C4544204C4154494E20534D414C4C204C4554544552204E20),
  (0x24DE, 0x434952434C4544204C4154494E20534D414C4C204C4554544552204F20),
  (0x24DF, 0x434952434C4544204C4154494E20534D414C4C204C4554544552205020),
  (0x24E0, 0x434952434C4544204C4154494E20534D414C4C204C4554544552205120),
  (0x24E1, 0x434952434C4544204C4154494E20534D414C4C204C4554544552205220),
  (0x24E2, 0x434952434C4544204C4154494E20534D414C4C204C4554544552205320),
  (0x24E3, 0x434952434C4544204C4154494E20534D414C4C204C4554544552205420),
  (0x24E4, 0x434952434C4544204C4154494E20534D414C4C204C4554544552205520),
  (0x24E5, 0x434952434C4544204C4154494E20534D414C4C204C4554544552205620),
  (0x24E6, 0x434952434C4544204C4154494E20534D414C4C204C4554544552205720),
  (0x24E7, 0x434952434C4544204C4154494E20534D414C4C204C4554544552205820),
  (0x24E8, 0x434952434C4544204C4154494E20534D414C4C204C4554544552205920),
  (0x24E9, 0x434952434C4544204C4154494E20534D414C4C204C4554544552205A20),
  (0x24EA, 0x434952434C4544204449474954205A45524F20),
  (0x24EB, 0x4E4547415449564520434952434C4544204E554D42455220454C4556454E20),
  (0x24EC, 0x4E4547415449564520434952434C4544204E554D424552205457454C564520),
  (0x24ED, 0x4E4547415449564520434952434C4544204E554D42455220544849525445454E20),
  (0x24EE, 0x4E4547415449564520434952434C4544204E554D42455220464F55525445454E20),
  (0x24EF, 0x4E4547415449564520434952434C4544204E554D424552204649465445454E20),
  (0x24F0, 0x4E4547415449564520434952434C4544204E554D424552205349585445454E20),
  (0x24F1, 0x4E4547415449564520434952434C4544204E554D42455220534556454E5445454E20),
  (0x24F2, 0x4E4547415449564520434952434C4544204E554D42455220454947485445454E20),
  (0x24F3, 0x4E4547415449564520434952434C4544204E554D424552204E494E455445454E20),
  (0x24F4, 0x4E4547415449564520434952434C4544204E554D424552205457454E545920),
  (0x24F5, 0x444F55424C4520434952434C4544204449474954204F4E4520),
  (0x24F6, 0x444F55424C4520434952434C45442044494749542054574F20),
  (0x24F7, 0x444F55424C4520434952434C454420444947495420544852454520),
  (0x24F8, 0x444F55424C4520434952434C454420444947495420464F555220),
  (0x24F9, 0x444F55424C4520434952434C4544204449474954204649564520),
  (0x24FA, 0x444F55424C4520434952434C45442044494749542053495820),
  (0x24FB, 0x444F55424C4520434952434C454420444947495420534556454E20),
  (0x24FC, 0x444F55424C4520434952434C454420444947495420454947485420),
  (0x24FD, 0x444F55424C4520434952434C4544204449474954204E494E4520),
  (0x24FE, 0x444F55424C4520434952434C4544204E554D4245522054454E20),
  (0x24FF, 0x4E4547415449564520434952434C4544204449474954205A45524F20),
  (0x2500, 0x424F582044524157494E4753204C4947485420484F52495A4F4E54414C20),
  (0x2501, 0x424F582044524157494E475320484541565920484F52495A4F4E54414C20),
  (0x2502, 0x424F582044524157494E4753204C4947485420564552544943414C20),
  (0x2503, 0x424F582044524157494E475320484541565920564552544943414C20),
  (0x2504, 0x424F582044524157494E4753204C4947485420545249504C45204441534820484F52495A4F4E54414C20),
  (0x2505, 0x424F582044524157494E475320484541565920545249504C45204441534820484F52495A4F4E54414C20),
  (0x2506, 0x424F582044524157494E4753204C4947485420545249504C45204441534820564552544943414C20),
  (0x2507, 0x424F582044524157494E475320484541565920545249504C45204441534820564552544943414C20),
  (0x2508, 0x424F582044524157494E4753204C4947485420515541445255504C45204441534820484F52495A4F4E54414C20)]
def names_130 : List (Nat × Nat) := [
  (0x2509, 0x424F582044524157494E475320484541565920515541445255504C45204441534820484F52495A4F4E54414C20),
  (0x250A, 0x424F582044524157494E4753204C4947485420515541445255504C45204441534820564552544943414C20),
  (0x250B, 0x424F582044524157494E475320484541565920515541445255504C45204441534820564552544943414C20),
  (0x250C, 0x424F582044524157494E4753204C4947485420444F574E20414E4420524947485420),
  (0x250D, 0x424F582044524157494E475320444F574E204C4947485420414E4420524947485420484541565920),
  (0x250E, 0x424F582044524157494E475320444F574E20484541565920414E44205249474854204C4947485420),
  (0x250F, 0x424F582044524157494E475320484541565920444F574E20414E4420524947485420),
  (0x2510, 0x424F582044524157494E4753204C4947485420444F574E20414E44204C45465420),
  (0x2511, 0x424F582044524157494E475320444F574E204C4947485420414E44204C45465420484541565920),
  (0x2512, 0x424F582044524157494E475320444F574E20484541565920414E44204C454654204C4947485420),
  (0x2513, 0x424F582044524157494E475320484541565920444F574E20414E44204C45465420),
  (0x2514, 0x424F582044524157494E4753204C4947485420555020414E4420524947485420),
  (0x2515, 0x424F582044524157494E4753205550204C4947485420414E4420524947485420484541565920),
  (0x2516, 0x424F582044524157494E475320555020484541565920414E44205249474854204C4947485420),
  (0x2517, 0x424F582044524157494E475320484541565920555020414E4420524947485420),
  (0x2518, 0x424F582044524157494E4753204C4947485420555020414E44204C45465420),
  (0x2519, 0x424F582044524157494E4753205550204C4947485420414E44204C45465420484541565920),
  (0x251A, 0x424F582044524157494E475320555020484541565920414E44204C454654204C4947485420),
  (0x251B, 0x424F582044524157494E475320484541565920555020414E44204C45465420),
  (0x251C, 0x424F582044524157494E4753204C4947485420564552544943414C20414E4420524947485420),
  (0x251D, 0x424F582044524157494E475320564552544943414C204C4947485420414E4420524947485420484541565920),
  (0x251E, 0x424F582044524157494E475320555020484541565920414E4420524947485420444F574E204C4947485420),
  (0x251F, 0x424F582044524157494E475320444F574E20484541565920414E44205249474854205550204C4947485420),
  (0x2520, 0x424F582044524157494E475320564552544943414C20484541565920414E44205249474854204C4947485420),
  (0x2521, 0x424F582044524157494E475320444F574E204C4947485420414E4420524947485420555020484541565920),
  (0x2522, 0x424F582044524157494E4753205550204C4947485420414E4420524947485420444F574E20484541565920),
  (0x2523, 0x424F582044524157494E475320484541565920564552544943414C20414E4420524947485420),
  (0x2524, 0x424F582044524157494E4753204C4947485420564552544943414C20414E44204C45465420),
  (0x2525, 0x424F582044524157494E475320564552544943414C204C4947485420414E44204C45465420484541565920),
  (0x2526, 0x424F582044524157494E475320555020484541565920414E44204C45465420444F574E204C4947485420),
  (0x2527, 0x424F582044524157494E475320444F574E20484541565920414E44204C454654205550204C4947485420),
  (0x2528, 0x424F582044524157494E475320564552544943414C20484541565920414E44204C454654204C4947485420),
  (0x2529, 0x424F582044524157494E475320444F574E204C4947485420414E44204C45465420555020484541565920),
  (0x252A, 0x424F582044524157494E4753205550204C4947485420414E44204C45465420444F574E20484541565920),
  (0x252B, 0x424F582044524157494E475320484541565920564552544943414C20414E44204C45465420),
  (0x252C, 0x424F582044524157494E4753204C4947485420444F574E20414E4420484F52495A4F4E54414C20),
  (0x252D, 0x424F582044524157494E4753204C45465420484541565920414E4420524947485420444F574E204C4947485420),
  (0x252E, 0x424F582044524157494E475320524947485420484541565920414E44204C45465420444F574E204C4947485420),
  (0x252F, 0x424F582044524157494E475320444F574E204C4947485420414E4420484F52495A4F4E54414C20484541565920),
  (0x2530, 0x424F582044524157494E475320444F574E20484541565920414E4420484F52495A4F4E54414C204C4947485420),
  (0x2531, 0x424F582044524157494E4753205249474854204C4947485420414E44204C45465420444F574E20484541565920),
  (0x2532, 0x424F582044524157494E4753204C454654204C4947485420414E4420524947485420444F574E20484541565920),
  (0x2533, 0x424F582044524157494E475320484541565920444F574E20414E4420484F52495A4F4E54414C20),
  (0x2534, 0x424F582044524157494E4753204C4947485420555020414E4420484F52495A4F4E54414C20),
  (0x2535, 0x424F582044524157494E4753204C45465420484541565920414E44205249474854205550204C4947485420),
  (0x2536, 0x424F582044524157494E475320524947485420484541565920414E44204C454654205550204C4947485420),
  (0x2537, 0x424F582044524157494E4753205550204C4947485420414E4420484F52495A4F4E54414C20484541565920),
  (0x2538, 0x424F582044524157494E475320555020484541565920414E4420484F52495A4F4E54414C204C4947485420),
  (0x2539, 0x424F582044524157494E4753205249474854204C4947485420414E44204C45465420555020484541565920),
  (0x253A, 0x424F582044524157494E4753204C454654204C4947485420414E4420524947485420555020484541565920),
  (0x253B, 0x424F582044524157494E475320484541565920555020414E4420484F52495A4F4E54414C20),
  (0x253C, 0x424F582044524157494E4753204C4947485420564552544943414C20414E4420484F52495A4F4E54414C20),
  (0x253D, 0x424F582044524157494E4753204C45465420484541565920414E4420524947485420564552544943414C204C4947485420),
  (0x253E, 0x424F582044524157494E475320524947485420484541565920414E44204C45465420564552544943414C204C4947485420),
  (0x253F, 0x424F582044524157494E475320564552544943414C204C4947485420414E4420484F52495A4F4E54414C20484541565920),
  (0x2540, 0x424F582044524157494E475320555020484541565920414E4420444F574E20484F52495A4F4E54414C204C4947485420),
  (0x2541, 0x424F582044524157494E475320444F574E20484541565920414E4420555020484F52495A4F4E54414C204C4947485420),
  (0x2542, 0x424F582044524157494E475320564552544943414C20484541565920414E4420484F52495A4F4E54414C204C4947485420),
  (0x2543, 0x424F582044524157494E4753204C45465420555020484541565920414E4420524947485420444F574E204C4947485420),
  (0x2544, 0x424F582044524157494E475320524947485420555020484541565920414E44204C45465420444F574E204C4947485420),
  (0x2545, 0x424F582044524157494E4753204C45465420444F574E20484541565920414E44205249474854205550204C4947485420),
  (0x2546, 0x424F582044524157494E475320524947485420444F574E20484541565920414E44204C454654205550204C4947485420),
  (0x2547, 0x424F582044524157494E475320444F574E204C4947485420414E4420555020484F52495A4F4E54414C20484541565920),
  (0x2548, 0x424F582044524157494E4753205550204C4947485420414E4420444F574E20484F52495A4F4E54414C20484541565920)]
def names_131 : List (Nat × Nat) := [
  (0x2549, 0x424F582044524157494E4753205249474854204C4947485420414E44204C45465420564552544943414C20484541565920),
  (0x254A, 0x424F582044524157494E4753204C454654204C4947485420414E4420524947485420564552544943414C20484541565920),
  (0x254B, 0x424F582044524157494E475320484541565920564552544943414C20414E4420484F52495A4F4E54414C20),
  (0x254C, 0x424F582044524157494E4753204C4947485420444F55424C45204441534820484F52495A4F4E54414C20),
  (0x254D, 0x424F582044524157494E475320484541565920444F55424C45204441534820484F52495A4F4E54414C20),
  (0x254E, 0x424F582044524157494E4753204C4947485420444F55424C45204441534820564552544943414C20),
  (0x254F, 0x424F582044524157494E475320484541565920444F55424C45204441534820564552544943414C20),
  (0x2550, 0x424F582044524157494E475320444F55424C4520484F52495A4F4E54414C20),
  (0x2551, 0x424F582044524157494E475320444F55424C4520564552544943414C20),
  (0x2552, 0x424F582044524157494E475320444F574E2053494E474C4520414E4420524947485420444F55424C4520),
  (0x2553, 0x424F582044524157494E475320444F574E20444F55424C4520414E442052494748542053494E474C4520),
  (0x2554, 0x424F582044524157494E475320444F55424C4520444F574E20414E4420524947485420),
  (0x2555, 0x424F582044524157494E475320444F574E2053494E474C4520414E44204C45465420444F55424C4520),
  (0x2556, 0x424F582044524157494E475320444F574E20444F55424C4520414E44204C4546542053494E474C4520),
  (0x2557, 0x424F582044524157494E475320444F55424C4520444F574E20414E44204C45465420),
  (0x2558, 0x424F582044524157494E47532055502053494E474C4520414E4420524947485420444F55424C4520),
  (0x2559, 0x424F582044524157494E475320555020444F55424C4520414E442052494748542053494E474C4520),
  (0x255A, 0x424F582044524157494E475320444F55424C4520555020414E4420524947485420),
  (0x255B, 0x424F582044524157494E47532055502053494E474C4520414E44204C45465420444F55424C4520),
  (0x255C, 0x424F582044524157494E475320555020444F55424C4520414E44204C4546542053494E474C4520),
  (0x255D, 0x424F582044524157494E475320444F55424C4520555020414E44204C45465420),
  (0x255E, 0x424F582044524157494E475320564552544943414C2053494E474C4520414E4420524947485420444F55424C4520),
  (0x255F, 0x424F582044524157494E475320564552544943414C20444F55424C4520414E442052494748542053494E474C4520),
  (0x2560, 0x424F582044524157494E475320444F55424C4520564552544943414C20414E4420524947485420),
  (0x2561, 0x424F582044524157494E475320564552544943414C2053494E474C4520414E44204C45465420444F55424C4520),
  (0x2562, 0x424F582044524157494E475320564552544943414C20444F55424C4520414E44204C4546542053494E474C4520),
  (0x2563, 0x424F582044524157494E475320444F55424C4520564552544943414C20414E44204C45465420),
  (0x2564, 0x424F582044524157494E475320444F574E2053494E474C4520414E4420484F52495A4F4E54414C20444F55424C4520),
  (0x2565, 0x424F582044524157494E475320444F574E20444F55424C4520414E4420484F52495A4F4E54414C2053494E474C4520),
  (0x2566, 0x424F582044524157494E475320444F55424C4520444F574E20414E4420484F52495A4F4E54414C20),
  (0x2567, 0x424F582044524157494E47532055502053494E474C4520414E4420484F52495A4F4E54414C20444F55424C4520),
  (0x2568, 0x424F582044524157494E475320555020444F55424C4520414E4420484F52495A4F4E54414C2053494E474C4520),
  (0x2569, 0x424F582044524157494E475320444F55424C4520555020414E4420484F52495A4F4E54414C20),
  (0x256A, 0x424F582044524157494E475320564552544943414C2053494E474C4520414E4420484F52495A4F4E54414C20444F55424C4520),
  (0x256B, 0x424F582044524157494E475320564552544943414C20444F55424C4520414E4420484F52495A4F4E54414C2053494E474C4520),
  (0x256C, 0x424F582044524157494E475320444F55424C4520564552544943414C20414E4420484F52495A4F4E54414C20),
  (0x256D, 0x424F582044524157494E4753204C494748542041524320444F574E20414E4420524947485420),
  (0x256E, 0x424F582044524157494E4753204C494748542041524320444F574E20414E44204C45465420),
  (0x256F, 0x424F582044524157494E4753204C494748542041524320555020414E44204C45465420),
  (0x2570, 0x424F582044524157494E4753204C494748542041524320555020414E4420524947485420),
  (0x2571, 0x424F582044524157494E4753204C4947485420444941474F4E414C20555050455220524947485420544F204C4F574552204C45465420),
  (0x2572, 0x424F582044524157494E4753204C4947485420444941474F4E414C205550504552204C45465420544F204C4F57455220524947485420),
  (0x2573, 0x424F582044524157494E4753204C4947485420444941474F4E414C2043524F535320),
  (0x2574, 0x424F582044524157494E4753204C49474854204C45465420),
  (0x2575, 0x424F582044524157494E4753204C4947485420555020),
  (0x2576, 0x424F582044524157494E4753204C4947485420524947485420),
  (0x2577, 0x424F582044524157494E4753204C4947485420444F574E20),
  (0x2578, 0x424F582044524157494E4753204845415659204C45465420),
  (0x2579, 0x424F582044524157494E475320484541565920555020),
  (0x257A, 0x424F582044524157494E475320484541565920524947485420),
  (0x257B, 0x424F582044524157494E475320484541565920444F574E20),
  (0x257C, 0x424F582044524157494E4753204C49474854204C45465420414E4420484541565920524947485420),
  (0x257D, 0x424F582044524157494E4753204C4947485420555020414E4420484541565920444F574E20),
  (0x257E, 0x424F582044524157494E4753204845415659204C45465420414E44204C4947485420524947485420),
  (0x257F, 0x424F582044524157494E475320484541565920555020414E44204C4947485420444F574E20),
  (0x2580, 0x55505045522048414C4620424C4F434B20),
  (0x2581, 0x4C4F574552204F4E452045494748544820424C4F434B20),
  (0x2582, 0x4C4F574552204F4E45205155415254455220424C4F434B20),
  (0x2583, 0x4C4F574552205448524545204549474854485320424C4F434B20),
  (0x2584, 0x4C4F5745522048414C4620424C4F434B20),
  (0x2585, 0x4C4F5745522046495645204549474854485320424C4F434B20),
  (0x2586, 0x4C4F57455220544852454520515541525445525320424C4F434B20),
  (0x2587, 0x4C4F57455220534556454E204549474854485320424C4F434B20),
  (0x2588, 0x46554C4C20424C4F434B20)]
def names_132 : List (Nat × Nat) := [
  (0x2589, 0x4C45465420534556454E204549474854485320424C4F434B20),
  (0x258A, 0x4C45465420544852454520515541525445525320424C4F434B20),
  (0x258B, 0x4C4546542046495645204549474854485320424C4F434B20),
  (0x258C, 0x4C4546542048414C4620424C4F434B20),
  (0x258D, 0x4C454654205448524545204549474854485320424C4F434B20),
  (0x258E, 0x4C454654204F4E45205155415254455220424C4F434B20),
  (0x258F, 0x4C454654204F4E452045494748544820424C4F434B20),
  (0x2590, 0x52494748542048414C4620424C4F434B20),
  (0x2591, 0x4C4947485420534841444520),
  (0x2592, 0x4D454449554D20534841444520),
  (0x2593, 0x4441524B20534841444520),
  (0x2594, 0x5550504552204F4E452045494748544820424C4F434B20),
  (0x2595, 0x5249474854204F4E452045494748544820424C4F434B20),
  (0x2596, 0x5155414452414E54204C4F574552204C45465420),
  (0x2597, 0x5155414452414E54204C4F57455220524947485420),
  (0x2598, 0x5155414452414E54205550504552204C45465420),
  (0x2599, 0x5155414452414E54205550504552204C45465420414E44204C4F574552204C45465420414E44204C4F57455220524947485420),
  (0x259A, 0x5155414452414E54205550504552204C45465420414E44204C4F57455220524947485420),
  (0x259B, 0x5155414452414E54205550504552204C45465420414E4420555050455220524947485420414E44204C4F574552204C45465420),
  (0x259C, 0x5155414452414E54205550504552204C45465420414E4420555050455220524947485420414E44204C4F57455220524947485420),
  (0x259D, 0x5155414452414E5420555050455220524947485420),
  (0x259E, 0x5155414452414E5420555050455220524947485420414E44204C4F574552204C45465420),
  (0x259F, 0x5155414452414E5420555050455220524947485420414E44204C4F574552204C45465420414E44204C4F57455220524947485420),
  (0x25A0, 0x424C41434B2053515541524520),
  (0x25A1, 0x57484954452053515541524520),
  (0x25A2, 0x574849544520535155415245205749544820524F554E44454420434F524E45525320),
  (0x25A3, 0x57484954452053515541524520434F4E5441494E494E4720424C41434B20534D414C4C2053515541524520),
  (0x25A4, 0x535155415245205749544820484F52495A4F4E54414C2046494C4C20),
  (0x25A5, 0x535155415245205749544820564552544943414C2046494C4C20),
  (0x25A6, 0x5351554152452057495448204F5254484F474F4E414C2043524F535348415443482046494C4C20),
  (0x25A7, 0x5351554152452057495448205550504552204C45465420544F204C4F5745522052494748542046494C4C20),
  (0x25A8, 0x535155415245205749544820555050455220524947485420544F204C4F574552204C4546542046494C4C20),
  (0x25A9, 0x535155415245205749544820444941474F4E414C2043524F535348415443482046494C4C20),
  (0x25AA, 0x424C41434B20534D414C4C2053515541524520),
  (0x25AB, 0x574849544520534D414C4C2053515541524520),
  (0x25AC, 0x424C41434B2052454354414E474C4520),
  (0x25AD, 0x57484954452052454354414E474C4520),
  (0x25AE, 0x424C41434B20564552544943414C2052454354414E474C4520),
  (0x25AF, 0x574849544520564552544943414C2052454354414E474C4520),
  (0x25B0, 0x424C41434B20504152414C4C454C4F4752414D20),
  (0x25B1, 0x574849544520504152414C4C454C4F4752414D20),
  (0x25B2, 0x424C41434B2055502D504F494E54494E4720545249414E474C4520),
  (0x25B3, 0x57484954452055502D504F494E54494E4720545249414E474C4520),
  (0x25B4, 0x424C41434B2055502D504F494E54494E4720534D414C4C20545249414E474C4520),
  (0x25B5, 0x57484954452055502D504F494E54494E4720534D414C4C20545249414E474C4520),
  (0x25B6, 0x424C41434B2052494748542D504F494E54494E4720545249414E474C4520),
  (0x25B7, 0x57484954452052494748542D504F494E54494E4720545249414E474C4520),
  (0x25B8, 0x424C41434B2052494748542D504F494E54494E4720534D414C4C20545249414E474C4520),
  (0x25B9, 0x57484954452052494748542D504F494E54494E4720534D414C4C20545249414E474C4520),
  (0x25BA, 0x424C41434B2052494748542D504F494E54494E4720504F494E54455220),
  (0x25BB, 0x57484954452052494748542D504F494E54494E4720504F494E54455220),
  (0x25BC, 0x424C41434B20444F574E2D504F494E54494E4720545249414E474C4520),
  (0x25BD, 0x574849544520444F574E2D504F494E54494E4720545249414E474C4520),
  (0x25BE, 0x424C41434B20444F574E2D504F494E54494E4720534D414C4C20545249414E474C4520),
  (0x25BF, 0x574849544520444F574E2D504F494E54494E4720534D414C4C20545249414E474C4520),
  (0x25C0, 0x424C41434B204C4546542D504F494E54494E4720545249414E474C4520),
  (0x25C1, 0x5748495445204C4546542D504F494E54494E4720545249414E474C4520),
  (0x25C2, 0x424C41434B204C4546542D504F494E54494E4720534D414C4C20545249414E474C4520),
  (0x25C3, 0x5748495445204C4546542D504F494E54494E4720534D414C4C20545249414E474C4520),
  (0x25C4, 0x424C41434B204C4546542D504F494E54494E4720504F494E54455220),
  (0x25C5, 0x5748495445204C4546542D504F494E54494E4720504F494E54455220),
  (0x25C6, 0x424C41434B204449414D4F4E4420),
  (0x25C7, 0x5748495445204449414D4F4E4420),
  (0x25C8, 0x5748495445204449414D4F4E4420434F4E5441494E494E4720424C41434B20534D414C4C204449414D4F4E4420)]
def names_133 : List (Nat × Nat) := [
  (0x25C9, 0x4649534845594520),
  (0x25CA, 0x4C4F5A454E474520),
  (0x25CB, 0x574849544520434952434C4520),
  (0x25CC, 0x444F5454454420434952434C4520),
  (0x25CD, 0x434952434C45205749544820564552544943414C2046494C4C20),
  (0x25CE, 0x42554C4C5345594520),
  (0x25CF, 0x424C41434B20434952434C4520),
  (0x25D0, 0x434952434C452057495448204C4546542048414C4620424C41434B20),
  (0x25D1, 0x434952434C4520574954482052494748542048414C4620424C41434B20),
  (0x25D2, 0x434952434C452057495448204C4F5745522048414C4620424C41434B20),
  (0x25D3, 0x434952434C4520574954482055505045522048414C4620424C41434B20),
  (0x25D4, 0x434952434C452057495448205550504552205249474854205155414452414E5420424C41434B20),
  (0x25D5, 0x434952434C45205749544820414C4C20425554205550504552204C454654205155414452414E5420424C41434B20),
  (0x25D6, 0x4C4546542048414C4620424C41434B20434952434C4520),
  (0x25D7, 0x52494748542048414C4620424C41434B20434952434C4520),
  (0x25D8, 0x494E56455253452042554C4C455420),
  (0x25D9, 0x494E564552534520574849544520434952434C4520),
  (0x25DA, 0x55505045522048414C4620494E564552534520574849544520434952434C4520),
  (0x25DB, 0x4C4F5745522048414C4620494E564552534520574849544520434952434C4520),
  (0x25DC, 0x5550504552204C454654205155414452414E542043495243554C41522041524320),
  (0x25DD, 0x5550504552205249474854205155414452414E542043495243554C41522041524320),
  (0x25DE, 0x4C4F574552205249474854205155414452414E542043495243554C41522041524320),
  (0x25DF, 0x4C4F574552204C454654205155414452414E542043495243554C41522041524320),
  (0x25E0, 0x55505045522048414C4620434952434C4520),
  (0x25E1, 0x4C4F5745522048414C4620434952434C4520),
  (0x25E2, 0x424C41434B204C4F57455220524947485420545249414E474C4520),
  (0x25E3, 0x424C41434B204C4F574552204C45465420545249414E474C4520),
  (0x25E4, 0x424C41434B205550504552204C45465420545249414E474C4520),
  (0x25E5, 0x424C41434B20555050455220524947485420545249414E474C4520),
  (0x25E6, 0x57484954452042554C4C455420),
  (0x25E7, 0x5351554152452057495448204C4546542048414C4620424C41434B20),
  (0x25E8, 0x53515541524520574954482052494748542048414C4620424C41434B20),
  (0x25E9, 0x5351554152452057495448205550504552204C45465420444941474F4E414C2048414C4620424C41434B20),
  (0x25EA, 0x5351554152452057495448204C4F57455220524947485420444941474F4E414C2048414C4620424C41434B20),
  (0x25EB, 0x574849544520535155415245205749544820564552544943414C20424953454354494E47204C494E4520),
  (0x25EC, 0x57484954452055502D504F494E54494E4720545249414E474C45205749544820444F5420),
  (0x25ED, 0x55502D504F494E54494E4720545249414E474C452057495448204C4546542048414C4620424C41434B20),
  (0x25EE, 0x55502D504F494E54494E4720545249414E474C4520574954482052494748542048414C4620424C41434B20),
  (0x25EF, 0x4C4152474520434952434C4520),
  (0x25F0, 0x5748495445205351554152452057495448205550504552204C454654205155414452414E5420),
  (0x25F1, 0x5748495445205351554152452057495448204C4F574552204C454654205155414452414E5420),
  (0x25F2, 0x5748495445205351554152452057495448204C4F574552205249474854205155414452414E5420),
  (0x25F3, 0x5748495445205351554152452057495448205550504552205249474854205155414452414E5420),
  (0x25F4, 0x574849544520434952434C452057495448205550504552204C454654205155414452414E5420),
  (0x25F5, 0x574849544520434952434C452057495448204C4F574552204C454654205155414452414E5420),
  (0x25F6, 0x574849544520434952434C452057495448204C4F574552205249474854205155414452414E5420),
  (0x25F7, 0x574849544520434952434C452057495448205550504552205249474854205155414452414E5420),
  (0x25F8, 0x5550504552204C45465420545249414E474C4520),
  (0x25F9, 0x555050455220524947485420545249414E474C4520),
  (0x25FA, 0x4C4F574552204C45465420545249414E474C4520),
  (0x25FB, 0x5748495445204D454449554D2053515541524520),
  (0x25FC, 0x424C41434B204D454449554D2053515541524520),
  (0x25FD, 0x5748495445204D454449554D20534D414C4C2053515541524520),
  (0x25FE, 0x424C41434B204D454449554D20534D414C4C2053515541524520),
  (0x25FF, 0x4C4F57455220524947485420545249414E474C4520),
  (0x2600, 0x424C41434B2053554E2057495448205241595320),
  (0x2601, 0x434C4F554420),
  (0x2602, 0x554D4252454C4C4120),
  (0x2603, 0x534E4F574D414E20),
  (0x2604, 0x434F4D455420),
  (0x2605, 0x424C41434B205354415220),
  (0x2606, 0x5748495445205354415220),
  (0x2607, 0x4C494748544E494E4720),
  (0x2608, 0x5448554E44455253544F524D20)]
def names_134 : List (Nat × Nat) := [
  (0x2609, 0x53554E20),
  (0x260A, 0x415343454E44494E47204E4F444520),
  (0x260B, 0x44455343454E44494E47204E4F444520),
  (0x260C, 0x434F4E4A554E4354494F4E20),
  (0x260D, 0x4F50504F534954494F4E20),
  (0x260E, 0x424C41434B2054454C4550484F4E4520),
  (0x260F, 0x57484954452054454C4550484F4E4520),
  (0x2610, 0x42414C4C4F5420424F5820),
  (0x2611, 0x42414C4C4F5420424F58205749544820434845434B20),
  (0x2612, 0x42414C4C4F5420424F582057495448205820),
  (0x2613, 0x53414C5449524520),
  (0x2614, 0x554D4252454C4C412057495448205241494E2044524F505320),
  (0x2615, 0x484F5420424556455241474520),
  (0x2616, 0x57484954452053484F474920504945434520),
  (0x2617, 0x424C41434B2053484F474920504945434520),
  (0x2618, 0x5348414D524F434B20),
  (0x2619, 0x524556455253454420524F544154454420464C4F52414C2048454152542042554C4C455420),
  (0x261A, 0x424C41434B204C45465420504F494E54494E4720494E44455820),
  (0x261B, 0x424C41434B20524947485420504F494E54494E4720494E44455820),
  (0x261C, 0x5748495445204C45465420504F494E54494E4720494E44455820),
  (0x261D, 0x574849544520555020504F494E54494E4720494E44455820),
  (0x261E, 0x574849544520524947485420504F494E54494E4720494E44455820),
  (0x261F, 0x574849544520444F574E20504F494E54494E4720494E44455820),
  (0x2620, 0x534B554C4C20414E442043524F5353424F4E455320),
  (0x2621, 0x43415554494F4E205349474E20),
  (0x2622, 0x524144494F414354495645205349474E20),
  (0x2623, 0x42494F48415A415244205349474E20),
  (0x2624, 0x434144554345555320),
  (0x2625, 0x414E4B4820),
  (0x2626, 0x4F5254484F444F582043524F535320),
  (0x2627, 0x4348492052484F20),
  (0x2628, 0x43524F5353204F46204C4F525241494E4520),
  (0x2629, 0x43524F5353204F46204A45525553414C454D20),
  (0x262A, 0x5354415220414E44204352455343454E5420),
  (0x262B, 0x46415253492053594D424F4C20),
  (0x262C, 0x414449205348414B544920),
  (0x262D, 0x48414D4D455220414E44205349434B4C4520),
  (0x262E, 0x50454143452053594D424F4C20),
  (0x262F, 0x59494E2059414E4720),
  (0x2630, 0x5452494752414D20464F522048454156454E20),
  (0x2631, 0x5452494752414D20464F52204C414B4520),
  (0x2632, 0x5452494752414D20464F52204649524520),
  (0x2633, 0x5452494752414D20464F52205448554E44455220),
  (0x2634, 0x5452494752414D20464F522057494E4420),
  (0x2635, 0x5452494752414D20464F5220574154455220),
  (0x2636, 0x5452494752414D20464F52204D4F554E5441494E20),
  (0x2637, 0x5452494752414D20464F5220454152544820),
  (0x2638, 0x574845454C204F4620444841524D4120),
  (0x2639, 0x57484954452046524F574E494E47204641434520),
  (0x263A, 0x574849544520534D494C494E47204641434520),
  (0x263B, 0x424C41434B20534D494C494E47204641434520),
  (0x263C, 0x57484954452053554E2057495448205241595320),
  (0x263D, 0x46495253542051554152544552204D4F4F4E20),
  (0x263E, 0x4C4153542051554152544552204D4F4F4E20),
  (0x263F, 0x4D45524355525920),
  (0x2640, 0x46454D414C45205349474E20),
  (0x2641, 0x454152544820),
  (0x2642, 0x4D414C45205349474E20),
  (0x2643, 0x4A55504954455220),
  (0x2644, 0x53415455524E20),
  (0x2645, 0x5552414E555320),
  (0x2646, 0x4E455054554E4520),
  (0x2647, 0x504C55544F20),
  (0x2648, 0x415249455320)]
def names_135 : List (Nat × Nat) := [
  (0x2649, 0x54415552555320),
  (0x264A, 0x47454D494E4920),
  (0x264B, 0x43414E43455220),
  (0x264C, 0x4C454F20),
  (0x264D, 0x564952474F20),
  (0x264E, 0x4C4942524120),
  (0x264F, 0x53434F525049555320),
  (0x2650, 0x534147495454415249555320),
  (0x2651, 0x4341505249434F524E20),
  (0x2652, 0x415155415249555320),
  (0x2653, 0x50495343455320),
  (0x2654, 0x5748495445204348455353204B494E4720),
  (0x2655, 0x574849544520434845535320515545454E20),
  (0x2656, 0x574849544520434845535320524F4F4B20),
  (0x2657, 0x574849544520434845535320424953484F5020),
  (0x2658, 0x5748495445204348455353204B4E4947485420),
  (0x2659, 0x5748495445204348455353205041574E20),
  (0x265A, 0x424C41434B204348455353204B494E4720),
  (0x265B, 0x424C41434B20434845535320515545454E20),
  (0x265C, 0x424C41434B20434845535320524F4F4B20),
  (0x265D, 0x424C41434B20434845535320424953484F5020),
  (0x265E, 0x424C41434B204348455353204B4E4947485420),
  (0x265F, 0x424C41434B204348455353205041574E20),
  (0x2660, 0x424C41434B205350414445205355495420),
  (0x2661, 0x5748495445204845415254205355495420),
  (0x2662, 0x5748495445204449414D4F4E44205355495420),
  (0x2663, 0x424C41434B20434C5542205355495420),
  (0x2664, 0x5748495445205350414445205355495420),
  (0x2665, 0x424C41434B204845415254205355495420),
  (0x2666, 0x424C41434B204449414D4F4E44205355495420),
  (0x2667, 0x574849544520434C5542205355495420),
  (0x2668, 0x484F5420535052494E475320),
  (0x2669, 0x51554152544552204E4F544520),
  (0x266A, 0x454947485448204E4F544520),
  (0x266B, 0x4245414D454420454947485448204E4F54455320),
  (0x266C, 0x4245414D4544205349585445454E5448204E4F54455320),
  (0x266D, 0x4D5553494320464C4154205349474E20),
  (0x266E, 0x4D55534943204E41545552414C205349474E20),
  (0x266F, 0x4D55534943205348415250205349474E20),
  (0x2670, 0x57455354205359524941432043524F535320),
  (0x2671, 0x45415354205359524941432043524F535320),
  (0x2672, 0x554E4956455253414C2052454359434C494E472053594D424F4C20),
  (0x2673, 0x52454359434C494E472053594D424F4C20464F5220545950452D3120504C41535449435320),
  (0x2674, 0x52454359434C494E472053594D424F4C20464F5220545950452D3220504C41535449435320),
  (0x2675, 0x52454359434C494E472053594D424F4C20464F5220545950452D3320504C41535449435320),
  (0x2676, 0x52454359434C494E472053594D424F4C20464F5220545950452D3420504C41535449435320),
  (0x2677, 0x52454359434C494E472053594D424F4C20464F5220545950452D3520504C41535449435320),
  (0x2678, 0x52454359434C494E472053594D424F4C20464F5220545950452D3620504C41535449435320),
  (0x2679, 0x52454359434C494E472053594D424F4C20464F5220545950452D3720504C41535449435320),
  (0x267A, 0x52454359434C494E472053594D424F4C20464F522047454E45524943204D4154455249414C5320),
  (0x267B, 0x424C41434B20554E4956455253414C2052454359434C494E472053594D424F4C20),
  (0x267C, 0x52454359434C45442050415045522053594D424F4C20),
  (0x267D, 0x5041525449414C4C592D52454359434C45442050415045522053594D424F4C20),
  (0x267E, 0x5045524D414E454E54205041504552205349474E20),
  (0x267F, 0x574845454C43484149522053594D424F4C20),
  (0x2680, 0x44494520464143452D3120),
  (0x2681, 0x44494520464143452D3220),
  (0x2682, 0x44494520464143452D3320),
  (0x2683, 0x44494520464143452D3420),
  (0x2684, 0x44494520464143452D3520),
  (0x2685, 0x44494520464143452D3620),
  (0x2686, 0x574849544520434952434C45205749544820444F5420524947485420),
  (0x2687, 0x574849544520434952434C4520574954482054574F20444F545320),
  (0x2688, 0x424C41434B20434952434C45205749544820574849544520444F5420524947485420)]
def names_136 : List (Nat × Nat) := [
  (0x2689, 0x424C41434B20434952434C4520574954482054574F20574849544520444F545320),
  (0x268A, 0x4D4F4E4F4752414D20464F522059414E4720),
  (0x268B, 0x4D4F4E4F4752414D20464F522059494E20),
  (0x268C, 0x44494752414D20464F5220475245415445522059414E4720),
  (0x268D, 0x44494752414D20464F52204C45535345522059494E20),
  (0x268E, 0x44494752414D20464F52204C45535345522059414E4720),
  (0x268F, 0x44494752414D20464F5220475245415445522059494E20),
  (0x2690, 0x574849544520464C414720),
  (0x2691, 0x424C41434B20464C414720),
  (0x2692, 0x48414D4D455220414E44205049434B20),
  (0x2693, 0x414E43484F5220),
  (0x2694, 0x43524F535345442053574F52445320),
  (0x2695, 0x5354414646204F462041455343554C415049555320),
  (0x2696, 0x5343414C455320),
  (0x2697, 0x414C454D42494320),
  (0x2698, 0x464C4F57455220),
  (0x2699, 0x4745415220),
  (0x269A, 0x5354414646204F46204845524D455320),
  (0x269B, 0x41544F4D2053594D424F4C20),
  (0x269C, 0x464C4555522D44452D4C495320),
  (0x269D, 0x4F55544C494E4544205748495445205354415220),
  (0x269E, 0x5448524545204C494E455320434F4E56455247494E4720524947485420),
  (0x269F, 0x5448524545204C494E455320434F4E56455247494E47204C45465420),
  (0x26A0, 0x5741524E494E47205349474E20),
  (0x26A1, 0x4849474820564F4C54414745205349474E20),
  (0x26A2, 0x444F55424C45442046454D414C45205349474E20),
  (0x26A3, 0x444F55424C4544204D414C45205349474E20),
  (0x26A4, 0x494E5445524C4F434B45442046454D414C4520414E44204D414C45205349474E20),
  (0x26A5, 0x4D414C4520414E442046454D414C45205349474E20),
  (0x26A6, 0x4D414C452057495448205354524F4B45205349474E20),
  (0x26A7, 0x4D414C452057495448205354524F4B4520414E44204D414C4520414E442046454D414C45205349474E20),
  (0x26A8, 0x564552544943414C204D414C452057495448205354524F4B45205349474E20),
  (0x26A9, 0x484F52495A4F4E54414C204D414C452057495448205354524F4B45205349474E20),
  (0x26AA, 0x4D454449554D20574849544520434952434C4520),
  (0x26AB, 0x4D454449554D20424C41434B20434952434C4520),
  (0x26AC, 0x4D454449554D20534D414C4C20574849544520434952434C4520),
  (0x26AD, 0x4D415252494147452053594D424F4C20),
  (0x26AE, 0x4449564F5243452053594D424F4C20),
  (0x26AF, 0x554E4D41525249454420504152544E4552534849502053594D424F4C20),
  (0x26B0, 0x434F4646494E20),
  (0x26B1, 0x46554E4552414C2055524E20),
  (0x26B2, 0x4E455554455220),
  (0x26B3, 0x434552455320),
  (0x26B4, 0x50414C4C415320),
  (0x26B5, 0x4A554E4F20),
  (0x26B6, 0x564553544120),
  (0x26B7, 0x434849524F4E20),
  (0x26B8, 0x424C41434B204D4F4F4E204C494C49544820),
  (0x26B9, 0x53455854494C4520),
  (0x26BA, 0x53454D4953455854494C4520),
  (0x26BB, 0x5155494E43554E5820),
  (0x26BC, 0x534553515549515541445241544520),
  (0x26BD, 0x534F434345522042414C4C20),
  (0x26BE, 0x4241534542414C4C20),
  (0x26BF, 0x53515541524544204B455920),
  (0x26C0, 0x5748495445204452415547485453204D414E20),
  (0x26C1, 0x5748495445204452415547485453204B494E4720),
  (0x26C2, 0x424C41434B204452415547485453204D414E20),
  (0x26C3, 0x424C41434B204452415547485453204B494E4720),
  (0x26C4, 0x534E4F574D414E20574954484F555420534E4F5720),
  (0x26C5, 0x53554E20424548494E4420434C4F554420),
  (0x26C6, 0x5241494E20),
  (0x26C7, 0x424C41434B20534E4F574D414E20),
  (0x26C8, 0x5448554E44455220434C4F554420414E44205241494E20)]
def names_137 : List (Nat × Nat) := [
  (0x26C9, 0x5455524E45442057484954452053484F474920504945434520),
  (0x26CA, 0x5455524E454420424C41434B2053484F474920504945434520),
  (0x26CB, 0x5748495445204449414D4F4E4420494E2053515541524520),
  (0x26CC, 0x43524F5353494E47204C414E455320),
  (0x26CD, 0x44495341424C45442043415220),
  (0x26CE, 0x4F504849554348555320),
  (0x26CF, 0x5049434B20),
  (0x26D0, 0x43415220534C4944494E4720),
  (0x26D1, 0x48454C4D455420574954482057484954452043524F535320),
  (0x26D2, 0x434952434C45442043524F5353494E47204C414E455320),
  (0x26D3, 0x434841494E5320),
  (0x26D4, 0x4E4F20454E54525920),
  (0x26D5, 0x414C5445524E415445204F4E452D574159204C45465420574159205452414646494320),
  (0x26D6, 0x424C41434B2054574F2D574159204C45465420574159205452414646494320),
  (0x26D7, 0x57484954452054574F2D574159204C45465420574159205452414646494320),
  (0x26D8, 0x424C41434B204C454654204C414E45204D4552474520),
  (0x26D9, 0x5748495445204C454654204C414E45204D4552474520),
  (0x26DA, 0x445249564520534C4F57205349474E20),
  (0x26DB, 0x484541565920574849544520444F574E2D504F494E54494E4720545249414E474C4520),
  (0x26DC, 0x4C45465420434C4F53454420454E54525920),
  (0x26DD, 0x535155415245442053414C5449524520),
  (0x26DE, 0x46414C4C494E4720444941474F4E414C20494E20574849544520434952434C4520494E20424C41434B2053515541524520),
  (0x26DF, 0x424C41434B20545255434B20),
  (0x26E0, 0x52455354524943544544204C45465420454E5452592D3120),
  (0x26E1, 0x52455354524943544544204C45465420454E5452592D3220),
  (0x26E2, 0x415354524F4E4F4D4943414C2053594D424F4C20464F52205552414E555320),
  (0x26E3, 0x484541565920434952434C452057495448205354524F4B4520414E442054574F20444F54532041424F564520),
  (0x26E4, 0x50454E54414752414D20),
  (0x26E5, 0x52494748542D48414E44454420494E5445524C414345442050454E54414752414D20),
  (0x26E6, 0x4C4546542D48414E44454420494E5445524C414345442050454E54414752414D20),
  (0x26E7, 0x494E5645525445442050454E54414752414D20),
  (0x26E8, 0x424C41434B2043524F5353204F4E20534849454C4420),
  (0x26E9, 0x5348494E544F20534852494E4520),
  (0x26EA, 0x43485552434820),
  (0x26EB, 0x434153544C4520),
  (0x26EC, 0x484953544F524943205349544520),
  (0x26ED, 0x4745415220574954484F55542048554220),
  (0x26EE, 0x4745415220574954482048414E444C455320),
  (0x26EF, 0x4D41502053594D424F4C20464F52204C49474854484F55534520),
  (0x26F0, 0x4D4F554E5441494E20),
  (0x26F1, 0x554D4252454C4C41204F4E2047524F554E4420),
  (0x26F2, 0x464F554E5441494E20),
  (0x26F3, 0x464C414720494E20484F4C4520),
  (0x26F4, 0x464552525920),
  (0x26F5, 0x5341494C424F415420),
  (0x26F6, 0x53515541524520464F555220434F524E45525320),
  (0x26F7, 0x534B49455220),
  (0x26F8, 0x49434520534B41544520),
  (0x26F9, 0x504552534F4E20574954482042414C4C20),
  (0x26FA, 0x54454E5420),
  (0x26FB, 0x4A4150414E4553452042414E4B2053594D424F4C20),
  (0x26FC, 0x4845414453544F4E45204752415645594152442053594D424F4C20),
  (0x26FD, 0x4655454C2050554D5020),
  (0x26FE, 0x435550204F4E20424C41434B2053515541524520),
  (0x26FF, 0x574849544520464C4147205749544820484F52495A4F4E54414C204D4944444C4520424C41434B2053545249504520),
  (0x2700, 0x424C41434B205341464554592053434953534F525320),
  (0x2701, 0x555050455220424C4144452053434953534F525320),
  (0x2702, 0x424C41434B2053434953534F525320),
  (0x2703, 0x4C4F57455220424C4144452053434953534F525320),
  (0x2704, 0x57484954452053434953534F525320),
  (0x2705, 0x574849544520484541565920434845434B204D41524B20),
  (0x2706, 0x54454C4550484F4E45204C4F434154494F4E205349474E20),
  (0x2707, 0x5441504520445249564520),
  (0x2708, 0x414952504C414E4520)]
def names_138 : List (Nat × Nat) := [
  (0x2709, 0x454E56454C4F504520),
  (0x270A, 0x524149534544204649535420),
  (0x270B, 0x5241495345442048414E4420),
  (0x270C, 0x564943544F52592048414E4420),
  (0x270D, 0x57524954494E472048414E4420),
  (0x270E, 0x4C4F5745522052494748542050454E43494C20),
  (0x270F, 0x50454E43494C20),
  (0x2710, 0x55505045522052494748542050454E43494C20),
  (0x2711, 0x5748495445204E494220),
  (0x2712, 0x424C41434B204E494220),
  (0x2713, 0x434845434B204D41524B20),
  (0x2714, 0x484541565920434845434B204D41524B20),
  (0x2715, 0x4D554C5449504C49434154494F4E205820),
  (0x2716, 0x4845415659204D554C5449504C49434154494F4E205820),
  (0x2717, 0x42414C4C4F54205820),
  (0x2718, 0x48454156592042414C4C4F54205820),
  (0x2719, 0x4F55544C494E454420475245454B2043524F535320),
  (0x271A, 0x484541565920475245454B2043524F535320),
  (0x271B, 0x4F50454E2043454E5452452043524F535320),
  (0x271C, 0x4845415659204F50454E2043454E5452452043524F535320),
  (0x271D, 0x4C4154494E2043524F535320),
  (0x271E, 0x534841444F574544205748495445204C4154494E2043524F535320),
  (0x271F, 0x4F55544C494E4544204C4154494E2043524F535320),
  (0x2720, 0x4D414C544553452043524F535320),
  (0x2721, 0x53544152204F4620444156494420),
  (0x2722, 0x464F5552205445415244524F502D53504F4B454420415354455249534B20),
  (0x2723, 0x464F55522042414C4C4F4F4E2D53504F4B454420415354455249534B20),
  (0x2724, 0x484541565920464F55522042414C4C4F4F4E2D53504F4B454420415354455249534B20),
  (0x2725, 0x464F555220434C55422D53504F4B454420415354455249534B20),
  (0x2726, 0x424C41434B20464F555220504F494E544544205354415220),
  (0x2727, 0x574849544520464F555220504F494E544544205354415220),
  (0x2728, 0x535041524B4C455320),
  (0x2729, 0x535452455353204F55544C494E4544205748495445205354415220),
  (0x272A, 0x434952434C4544205748495445205354415220),
  (0x272B, 0x4F50454E2043454E54524520424C41434B205354415220),
  (0x272C, 0x424C41434B2043454E545245205748495445205354415220),
  (0x272D, 0x4F55544C494E454420424C41434B205354415220),
  (0x272E, 0x4845415659204F55544C494E454420424C41434B205354415220),
  (0x272F, 0x50494E574845454C205354415220),
  (0x2730, 0x534841444F574544205748495445205354415220),
  (0x2731, 0x484541565920415354455249534B20),
  (0x2732, 0x4F50454E2043454E54524520415354455249534B20),
  (0x2733, 0x45494748542053504F4B454420415354455249534B20),
  (0x2734, 0x454947485420504F494E54454420424C41434B205354415220),
  (0x2735, 0x454947485420504F494E5445442050494E574845454C205354415220),
  (0x2736, 0x53495820504F494E54454420424C41434B205354415220),
  (0x2737, 0x454947485420504F494E5445442052454354494C494E45415220424C41434B205354415220),
  (0x2738, 0x484541565920454947485420504F494E5445442052454354494C494E45415220424C41434B205354415220),
  (0x2739, 0x5457454C564520504F494E54454420424C41434B205354415220),
  (0x273A, 0x5349585445454E20504F494E54454420415354455249534B20),
  (0x273B, 0x5445415244524F502D53504F4B454420415354455249534B20),
  (0x273C, 0x4F50454E2043454E545245205445415244524F502D53504F4B454420415354455249534B20),
  (0x273D, 0x4845415659205445415244524F502D53504F4B454420415354455249534B20),
  (0x273E, 0x53495820504554414C4C454420424C41434B20414E4420574849544520464C4F524554544520),
  (0x273F, 0x424C41434B20464C4F524554544520),
  (0x2740, 0x574849544520464C4F524554544520),
  (0x2741, 0x454947485420504554414C4C4544204F55544C494E454420424C41434B20464C4F524554544520),
  (0x2742, 0x434952434C4544204F50454E2043454E54524520454947485420504F494E544544205354415220),
  (0x2743, 0x4845415659205445415244524F502D53504F4B45442050494E574845454C20415354455249534B20),
  (0x2744, 0x534E4F57464C414B4520),
  (0x2745, 0x544947485420545249464F4C4941544520534E4F57464C414B4520),
  (0x2746, 0x48454156592043484556524F4E20534E4F57464C414B4520),
  (0x2747, 0x535041524B4C4520),
  (0x2748, 0x484541565920535041524B4C4520)]
def names_139 : List (Nat × Nat) := [
  (0x2749, 0x42414C4C4F4F4E2D53504F4B454420415354455249534B20),
  (0x274A, 0x4549474854205445415244524F502D53504F4B45442050524F50454C4C455220415354455249534B20),
  (0x274B, 0x4845415659204549474854205445415244524F502D53504F4B45442050524F50454C4C455220415354455249534B20),
  (0x274C, 0x43524F5353204D41524B20),
  (0x274D, 0x534841444F57454420574849544520434952434C4520),
  (0x274E, 0x4E4547415449564520535155415245442043524F5353204D41524B20),
  (0x274F, 0x4C4F5745522052494748542044524F502D534841444F5745442057484954452053515541524520),
  (0x2750, 0x55505045522052494748542044524F502D534841444F5745442057484954452053515541524520),
  (0x2751, 0x4C4F57455220524947485420534841444F5745442057484954452053515541524520),
  (0x2752, 0x555050455220524947485420534841444F5745442057484954452053515541524520),
  (0x2753, 0x424C41434B205155455354494F4E204D41524B204F524E414D454E5420),
  (0x2754, 0x5748495445205155455354494F4E204D41524B204F524E414D454E5420),
  (0x2755, 0x5748495445204558434C414D4154494F4E204D41524B204F524E414D454E5420),
  (0x2756, 0x424C41434B204449414D4F4E44204D494E5553205748495445205820),
  (0x2757, 0x4845415659204558434C414D4154494F4E204D41524B2053594D424F4C20),
  (0x2758, 0x4C4947485420564552544943414C2042415220),
  (0x2759, 0x4D454449554D20564552544943414C2042415220),
  (0x275A, 0x484541565920564552544943414C2042415220),
  (0x275B, 0x48454156592053494E474C45205455524E454420434F4D4D412051554F544154494F4E204D41524B204F524E414D454E5420),
  (0x275C, 0x48454156592053494E474C4520434F4D4D412051554F544154494F4E204D41524B204F524E414D454E5420),
  (0x275D, 0x484541565920444F55424C45205455524E454420434F4D4D412051554F544154494F4E204D41524B204F524E414D454E5420),
  (0x275E, 0x484541565920444F55424C4520434F4D4D412051554F544154494F4E204D41524B204F524E414D454E5420),
  (0x275F, 0x4845415659204C4F572053494E474C4520434F4D4D412051554F544154494F4E204D41524B204F524E414D454E5420),
  (0x2760, 0x4845415659204C4F5720444F55424C4520434F4D4D412051554F544154494F4E204D41524B204F524E414D454E5420),
  (0x2761, 0x435552564544205354454D20504152414752415048205349474E204F524E414D454E5420),
  (0x2762, 0x4845415659204558434C414D4154494F4E204D41524B204F524E414D454E5420),
  (0x2763, 0x4845415659204845415254204558434C414D4154494F4E204D41524B204F524E414D454E5420),
  (0x2764, 0x484541565920424C41434B20484541525420),
  (0x2765, 0x524F544154454420484541565920424C41434B2048454152542042554C4C455420),
  (0x2766, 0x464C4F52414C20484541525420),
  (0x2767, 0x524F544154454420464C4F52414C2048454152542042554C4C455420),
  (0x2768, 0x4D454449554D204C45465420504152454E544845534953204F524E414D454E5420),
  (0x2769, 0x4D454449554D20524947485420504152454E544845534953204F524E414D454E5420),
  (0x276A, 0x4D454449554D20464C415454454E4544204C45465420504152454E544845534953204F524E414D454E5420),
  (0x276B, 0x4D454449554D20464C415454454E454420524947485420504152454E544845534953204F524E414D454E5420),
  (0x276C, 0x4D454449554D204C4546542D504F494E54494E4720414E474C4520425241434B4554204F524E414D454E5420),
  (0x276D, 0x4D454449554D2052494748542D504F494E54494E4720414E474C4520425241434B4554204F524E414D454E5420),
  (0x276E, 0x4845415659204C4546542D504F494E54494E4720414E474C452051554F544154494F4E204D41524B204F524E414D454E5420),
  (0x276F, 0x48454156592052494748542D504F494E54494E4720414E474C452051554F544154494F4E204D41524B204F524E414D454E5420),
  (0x2770, 0x4845415659204C4546542D504F494E54494E4720414E474C4520425241434B4554204F524E414D454E5420),
  (0x2771, 0x48454156592052494748542D504F494E54494E4720414E474C4520425241434B4554204F524E414D454E5420),
  (0x2772, 0x4C49474854204C45465420544F52544F495345205348454C4C20425241434B4554204F524E414D454E5420),
  (0x2773, 0x4C4947485420524947485420544F52544F495345205348454C4C20425241434B4554204F524E414D454E5420),
  (0x2774, 0x4D454449554D204C454654204355524C5920425241434B4554204F524E414D454E5420),
  (0x2775, 0x4D454449554D205249474854204355524C5920425241434B4554204F524E414D454E5420),
  (0x2776, 0x44494E47424154204E4547415449564520434952434C4544204449474954204F4E4520),
  (0x2777, 0x44494E47424154204E4547415449564520434952434C45442044494749542054574F20),
  (0x2778, 0x44494E47424154204E4547415449564520434952434C454420444947495420544852454520),
  (0x2779, 0x44494E47424154204E4547415449564520434952434C454420444947495420464F555220),
  (0x277A, 0x44494E47424154204E4547415449564520434952434C4544204449474954204649564520),
  (0x277B, 0x44494E47424154204E4547415449564520434952434C45442044494749542053495820),
  (0x277C, 0x44494E47424154204E4547415449564520434952434C454420444947495420534556454E20),
  (0x277D, 0x44494E47424154204E4547415449564520434952434C454420444947495420454947485420),
  (0x277E, 0x44494E47424154204E4547415449564520434952434C4544204449474954204E494E4520),
  (0x277F, 0x44494E47424154204E4547415449564520434952434C4544204E554D4245522054454E20),
  (0x2780, 0x44494E4742415420434952434C45442053414E532D5345524946204449474954204F4E4520),
  (0x2781, 0x44494E4742415420434952434C45442053414E532D53455249462044494749542054574F20),
  (0x2782, 0x44494E4742415420434952434C45442053414E532D534552494620444947495420544852454520),
  (0x2783, 0x44494E4742415420434952434C45442053414E532D534552494620444947495420464F555220),
  (0x2784, 0x44494E4742415420434952434C45442053414E532D5345524946204449474954204649564520),
  (0x2785, 0x44494E4742415420434952434C45442053414E532D53455249462044494749542053495820),
  (0x2786, 0x44494E4742415420434952434C45442053414E532D534552494620444947495420534556454E20),
  (0x2787, 0x44494E4742415420434952434C45442053414E532D534552494620444947495420454947485420),
  (0x2788, 0x44494E4742415420434952434C45442053414E532D5345524946204449474954204E494E4520)]
def names_140 : List (Nat × Nat) := [
  (0x2789, 0x44494E4742415420434952434C45442053414E532D5345524946204E554D4245522054454E20),
  (0x278A, 0x44494E47424154204E4547415449564520434952434C45442053414E532D5345524946204449474954204F4E4520),
  (0x278B, 0x44494E47424154204E4547415449564520434952434C45442053414E532D53455249462044494749542054574F20),
  (0x278C, 0x44494E47424154204E4547415449564520434952434C45442053414E532D534552494620444947495420544852454520),
  (0x278D, 0x44494E47424154204E4547415449564520434952434C45442053414E532D534552494620444947495420464F555220),
  (0x278E, 0x44494E47424154204E4547415449564520434952434C45442053414E532D5345524946204449474954204649564520),
  (0x278F, 0x44494E47424154204E4547415449564520434952434C45442053414E532D53455249462044494749542053495820),
  (0x2790, 0x44494E47424154204E4547415449564520434952434C45442053414E532D534552494620444947495420534556454E20),
  (0x2791, 0x44494E47424154204E4547415449564520434952434C45442053414E532D534552494620444947495420454947485420),
  (0x2792, 0x44494E47424154204E4547415449564520434952434C45442053414E532D5345524946204449474954204E494E4520),
  (0x2793, 0x44494E47424154204E4547415449564520434952434C45442053414E532D5345524946204E554D4245522054454E20),
  (0x2794, 0x484541565920574944452D4845414445442052494748545741524453204152524F5720),
  (0x2795, 0x484541565920504C5553205349474E20),
  (0x2796, 0x4845415659204D494E5553205349474E20),
  (0x2797, 0x4845415659204449564953494F4E205349474E20),
  (0x2798, 0x484541565920534F5554482045415354204152524F5720),
  (0x2799, 0x48454156592052494748545741524453204152524F5720),
  (0x279A, 0x4845415659204E4F5254482045415354204152524F5720),
  (0x279B, 0x4452414654494E4720504F494E542052494748545741524453204152524F5720),
  (0x279C, 0x484541565920524F554E442D5449505045442052494748545741524453204152524F5720),
  (0x279D, 0x545249414E474C452D4845414445442052494748545741524453204152524F5720),
  (0x279E, 0x484541565920545249414E474C452D4845414445442052494748545741524453204152524F5720),
  (0x279F, 0x44415348454420545249414E474C452D4845414445442052494748545741524453204152524F5720),
  (0x27A0, 0x48454156592044415348454420545249414E474C452D4845414445442052494748545741524453204152524F5720),
  (0x27A1, 0x424C41434B2052494748545741524453204152524F5720),
  (0x27A2, 0x54485245452D4420544F502D4C4947485445442052494748545741524453204152524F574845414420),
  (0x27A3, 0x54485245452D4420424F54544F4D2D4C4947485445442052494748545741524453204152524F574845414420),
  (0x27A4, 0x424C41434B2052494748545741524453204152524F574845414420),
  (0x27A5, 0x484541565920424C41434B2043555256454420444F574E574152445320414E442052494748545741524453204152524F5720),
  (0x27A6, 0x484541565920424C41434B20435552564544205550574152445320414E442052494748545741524453204152524F5720),
  (0x27A7, 0x535155415420424C41434B2052494748545741524453204152524F5720),
  (0x27A8, 0x484541565920434F4E434156452D504F494E54454420424C41434B2052494748545741524453204152524F5720),
  (0x27A9, 0x52494748542D5348414445442057484954452052494748545741524453204152524F5720),
  (0x27AA, 0x4C4546542D5348414445442057484954452052494748545741524453204152524F5720),
  (0x27AB, 0x4241434B2D54494C54454420534841444F5745442057484954452052494748545741524453204152524F5720),
  (0x27AC, 0x46524F4E542D54494C54454420534841444F5745442057484954452052494748545741524453204152524F5720),
  (0x27AD, 0x4845415659204C4F5745522052494748542D534841444F5745442057484954452052494748545741524453204152524F5720),
  (0x27AE, 0x48454156592055505045522052494748542D534841444F5745442057484954452052494748545741524453204152524F5720),
  (0x27AF, 0x4E4F5443484544204C4F5745522052494748542D534841444F5745442057484954452052494748545741524453204152524F5720),
  (0x27B0, 0x4355524C59204C4F4F5020),
  (0x27B1, 0x4E4F54434845442055505045522052494748542D534841444F5745442057484954452052494748545741524453204152524F5720),
  (0x27B2, 0x434952434C45442048454156592057484954452052494748545741524453204152524F5720),
  (0x27B3, 0x57484954452D4645415448455245442052494748545741524453204152524F5720),
  (0x27B4, 0x424C41434B2D46454154484552454420534F5554482045415354204152524F5720),
  (0x27B5, 0x424C41434B2D4645415448455245442052494748545741524453204152524F5720),
  (0x27B6, 0x424C41434B2D464541544845524544204E4F5254482045415354204152524F5720),
  (0x27B7, 0x484541565920424C41434B2D46454154484552454420534F5554482045415354204152524F5720),
  (0x27B8, 0x484541565920424C41434B2D4645415448455245442052494748545741524453204152524F5720),
  (0x27B9, 0x484541565920424C41434B2D464541544845524544204E4F5254482045415354204152524F5720),
  (0x27BA, 0x5445415244524F502D4241524245442052494748545741524453204152524F5720),
  (0x27BB, 0x4845415659205445415244524F502D5348414E4B45442052494748545741524453204152524F5720),
  (0x27BC, 0x57454447452D5441494C45442052494748545741524453204152524F5720),
  (0x27BD, 0x48454156592057454447452D5441494C45442052494748545741524453204152524F5720),
  (0x27BE, 0x4F50454E2D4F55544C494E45442052494748545741524453204152524F5720),
  (0x27BF, 0x444F55424C45204355524C59204C4F4F5020),
  (0x27C0, 0x54485245452044494D454E53494F4E414C20414E474C4520),
  (0x27C1, 0x574849544520545249414E474C4520434F4E5441494E494E4720534D414C4C20574849544520545249414E474C4520),
  (0x27C2, 0x50455250454E444943554C415220),
  (0x27C3, 0x4F50454E2053554253455420),
  (0x27C4, 0x4F50454E20535550455253455420),
  (0x27C5, 0x4C45465420532D534841504544204241472044454C494D4954455220),
  (0x27C6, 0x524947485420532D534841504544204241472044454C494D4954455220),
  (0x27C7, 0x4F52205749544820444F5420494E5349444520),
  (0x27C8, 0x5245564552534520534F4C4944555320505245434544494E472053554253455420)]
def names_141 : List (Nat × Nat) := [
  (0x27C9, 0x535550455253455420505245434544494E4720534F4C4944555320),
  (0x27CA, 0x564552544943414C20424152205749544820484F52495A4F4E54414C205354524F4B4520),
  (0x27CB, 0x4D415448454D41544943414C20524953494E4720444941474F4E414C20),
  (0x27CC, 0x4C4F4E47204449564953494F4E20),
  (0x27CD, 0x4D415448454D41544943414C2046414C4C494E4720444941474F4E414C20),
  (0x27CE, 0x53515541524544204C4F474943414C20414E4420),
  (0x27CF, 0x53515541524544204C4F474943414C204F5220),
  (0x27D0, 0x5748495445204449414D4F4E4420574954482043454E5452454420444F5420),
  (0x27D1, 0x414E44205749544820444F5420),
  (0x27D2, 0x454C454D454E54204F46204F50454E494E47205550574152445320),
  (0x27D3, 0x4C4F57455220524947485420434F524E4552205749544820444F5420),
  (0x27D4, 0x5550504552204C45465420434F524E4552205749544820444F5420),
  (0x27D5, 0x4C454654204F55544552204A4F494E20),
  (0x27D6, 0x5249474854204F55544552204A4F494E20),
  (0x27D7, 0x46554C4C204F55544552204A4F494E20),
  (0x27D8, 0x4C41524745205550205441434B20),
  (0x27D9, 0x4C4152474520444F574E205441434B20),
  (0x27DA, 0x4C45465420414E4420524947485420444F55424C45205455524E5354494C4520),
  (0x27DB, 0x4C45465420414E44205249474854205441434B20),
  (0x27DC, 0x4C454654204D554C54494D415020),
  (0x27DD, 0x4C4F4E47205249474854205441434B20),
  (0x27DE, 0x4C4F4E47204C454654205441434B20),
  (0x27DF, 0x5550205441434B205749544820434952434C452041424F564520),
  (0x27E0, 0x4C4F5A454E4745204449564944454420425920484F52495A4F4E54414C2052554C4520),
  (0x27E1, 0x574849544520434F4E434156452D5349444544204449414D4F4E4420),
  (0x27E2, 0x574849544520434F4E434156452D5349444544204449414D4F4E442057495448204C4546545741524453205449434B20),
  (0x27E3, 0x574849544520434F4E434156452D5349444544204449414D4F4E4420574954482052494748545741524453205449434B20),
  (0x27E4, 0x5748495445205351554152452057495448204C4546545741524453205449434B20),
  (0x27E5, 0x57484954452053515541524520574954482052494748545741524453205449434B20),
  (0x27E6, 0x4D415448454D41544943414C204C4546542057484954452053515541524520425241434B455420),
  (0x27E7, 0x4D415448454D41544943414C2052494748542057484954452053515541524520425241434B455420),
  (0x27E8, 0x4D415448454D41544943414C204C45465420414E474C4520425241434B455420),
  (0x27E9, 0x4D415448454D41544943414C20524947485420414E474C4520425241434B455420),
  (0x27EA, 0x4D415448454D41544943414C204C45465420444F55424C4520414E474C4520425241434B455420),
  (0x27EB, 0x4D415448454D41544943414C20524947485420444F55424C4520414E474C4520425241434B455420),
  (0x27EC, 0x4D415448454D41544943414C204C45465420574849544520544F52544F495345205348454C4C20425241434B455420),
  (0x27ED, 0x4D415448454D41544943414C20524947485420574849544520544F52544F495345205348454C4C20425241434B455420),
  (0x27EE, 0x4D415448454D41544943414C204C45465420464C415454454E454420504152454E54484553495320),
  (0x27EF, 0x4D415448454D41544943414C20524947485420464C415454454E454420504152454E54484553495320),
  (0x27F0, 0x5550574152445320515541445255504C45204152524F5720),
  (0x27F1, 0x444F574E574152445320515541445255504C45204152524F5720),
  (0x27F2, 0x414E5449434C4F434B574953452047415050454420434952434C45204152524F5720),
  (0x27F3, 0x434C4F434B574953452047415050454420434952434C45204152524F5720),
  (0x27F4, 0x5249474854204152524F57205749544820434952434C454420504C555320),
  (0x27F5, 0x4C4F4E47204C4546545741524453204152524F5720),
  (0x27F6, 0x4C4F4E472052494748545741524453204152524F5720),
  (0x27F7, 0x4C4F4E47204C454654205249474854204152524F5720),
  (0x27F8, 0x4C4F4E47204C454654574152445320444F55424C45204152524F5720),
  (0x27F9, 0x4C4F4E47205249474854574152445320444F55424C45204152524F5720),
  (0x27FA, 0x4C4F4E47204C45465420524947485420444F55424C45204152524F5720),
  (0x27FB, 0x4C4F4E47204C4546545741524453204152524F572046524F4D2042415220),
  (0x27FC, 0x4C4F4E472052494748545741524453204152524F572046524F4D2042415220),
  (0x27FD, 0x4C4F4E47204C454654574152445320444F55424C45204152524F572046524F4D2042415220),
  (0x27FE, 0x4C4F4E47205249474854574152445320444F55424C45204152524F572046524F4D2042415220),
  (0x27FF, 0x4C4F4E472052494748545741524453205351554947474C45204152524F5720),
  (0x2800, 0x425241494C4C45205041545445524E20424C414E4B20),
  (0x2801, 0x425241494C4C45205041545445524E20444F54532D3120),
  (0x2802, 0x425241494C4C45205041545445524E20444F54532D3220),
  (0x2803, 0x425241494C4C45205041545445524E20444F54532D313220),
  (0x2804, 0x425241494C4C45205041545445524E20444F54532D3320),
  (0x2805, 0x425241494C4C45205041545445524E20444F54532D313320),
  (0x2806, 0x425241494C4C45205041545445524E20444F54532D323320),
  (0x2807, 0x425241494C4C45205041545445524E20444F54532D31323320),
  (0x2808, 0x425241494C4C45205041545445524E20444F54532D3420)]
def names_142 : List (Nat × Nat) := [
  (0x2809, 0x425241494C4C45205041545445524E20444F54532D313420),
  (0x280A, 0x425241494C4C45205041545445524E20444F54532D323420),
  (0x280B, 0x425241494C4C45205041545445524E20444F54532D31323420),
  (0x280C, 0x425241494C4C45205041545445524E20444F54532D333420),
  (0x280D, 0x425241494C4C45205041545445524E20444F54532D31333420),
  (0x280E, 0x425241494C4C45205041545445524E20444F54532D32333420),
  (0x280F, 0x425241494C4C45205041545445524E20444F54532D3132333420),
  (0x2810, 0x425241494C4C45205041545445524E20444F54532D3520),
  (0x2811, 0x425241494C4C45205041545445524E20444F54532D313520),
  (0x2812, 0x425241494C4C45205041545445524E20444F54532D323520),
  (0x2813, 0x425241494C4C45205041545445524E20444F54532D31323520),
  (0x2814, 0x425241494C4C45205041545445524E20444F54532D333520),
  (0x2815, 0x425241494C4C45205041545445524E20444F54532D31333520),
  (0x2816, 0x425241494C4C45205041545445524E20444F54532D32333520),
  (0x2817, 0x425241494C4C45205041545445524E20444F54532D3132333520),
  (0x2818, 0x425241494C4C45205041545445524E20444F54532D343520),
  (0x2819, 0x425241494C4C45205041545445524E20444F54532D31343520),
  (0x281A, 0x425241494C4C45205041545445524E20444F54532D32343520),
  (0x281B, 0x425241494C4C45205041545445524E20444F54532D3132343520),
  (0x281C, 0x425241494C4C45205041545445524E20444F54532D33343520),
  (0x281D, 0x425241494C4C45205041545445524E20444F54532D3133343520),
  (0x281E, 0x425241494C4C45205041545445524E20444F54532D3233343520),
  (0x281F, 0x425241494C4C45205041545445524E20444F54532D313233343520),
  (0x2820, 0x425241494C4C45205041545445524E20444F54532D3620),
  (0x2821, 0x425241494C4C45205041545445524E20444F54532D313620),
  (0x2822, 0x425241494C4C45205041545445524E20444F54532D323620),
  (0x2823, 0x425241494C4C45205041545445524E20444F54532D31323620),
  (0x2824, 0x425241494C4C45205041545445524E20444F54532D333620),
  (0x2825, 0x425241494C4C45205041545445524E20444F54532D31333620),
  (0x2826, 0x425241494C4C45205041545445524E20444F54532D32333620),
  (0x2827, 0x425241494C4C45205041545445524E20444F54532D3132333620),
  (0x2828, 0x425241494C4C45205041545445524E20444F54532D343620),
  (0x2829, 0x425241494C4C45205041545445524E20444F54532D31343620),
  (0x282A, 0x425241494C4C45205041545445524E20444F54532D32343620),
  (0x282B, 0x425241494C4C45205041545445524E20444F54532D3132343620),
  (0x282C, 0x425241494C4C45205041545445524E20444F54532D33343620),
  (0x282D, 0x425241494C4C45205041545445524E20444F54532D3133343620),
  (0x282E, 0x425241494C4C45205041545445524E20444F54532D3233343620),
  (0x282F, 0x425241494C4C45205041545445524E20444F54532D313233343620),
  (0x2830, 0x425241494C4C45205041545445524E20444F54532D353620),
  (0x2831, 0x425241494C4C45205041545445524E20444F54532D31353620),
  (0x2832, 0x425241494C4C45205041545445524E20444F54532D32353620),
  (0x2833, 0x425241494C4C45205041545445524E20444F54532D3132353620),
  (0x2834, 0x425241494C4C45205041545445524E20444F54532D33353620),
  (0x2835, 0x425241494C4C45205041545445524E20444F54532D3133353620),
  (0x2836, 0x425241494C4C45205041545445524E20444F54532D3233353620),
  (0x2837, 0x425241494C4C45205041545445524E20444F54532D313233353620),
  (0x2838, 0x425241494C4C45205041545445524E20444F54532D34353620),
  (0x2839, 0x425241494C4C45205041545445524E20444F54532D3134353620),
  (0x283A, 0x425241494C4C45205041545445524E20444F54532D3234353620),
  (0x283B, 0x425241494C4C45205041545445524E20444F54532D313234353620),
  (0x283C, 0x425241494C4C45205041545445524E20444F54532D3334353620),
  (0x283D, 0x425241494C4C45205041545445524E20444F54532D313334353620),
  (0x283E, 0x425241494C4C45205041545445524E20444F54532D323334353620),
  (0x283F, 0x425241494C4C45205041545445524E20444F54532D31323334353620),
  (0x2840, 0x425241494C4C45205041545445524E20444F54532D3720),
  (0x2841, 0x425241494C4C45205041545445524E20444F54532D313720),
  (0x2842, 0x425241494C4C45205041545445524E20444F54532D323720),
  (0x2843, 0x425241494C4C45205041545445524E20444F54532D31323720),
  (0x2844, 0x425241494C4C45205041545445524E20444F54532D333720),
  (0x2845, 0x425241494C4C45205041545445524E20444F54532D31333720),
  (0x2846, 0x425241494C4C45205041545445524E20444F54532D32333720),
  (0x2847, 0x425241494C4C45205041545445524E20444F54532D3132333720),
  (0x2848, 0x425241494C4C45205041545445524E20444F54532D343720)]
def names_143 : List (Nat × Nat) := [
  (0x2849, 0x425241494C4C45205041545445524E20444F54532D31343720),
  (0x284A, 0x425241494C4C45205041545445524E20444F54532D32343720),
  (0x284B, 0x425241494C4C45205041545445524E20444F54532D3132343720),
  (0x284C, 0x425241494C4C45205041545445524E20444F54532D33343720),
  (0x284D, 0x425241494C4C45205041545445524E20444F54532D3133343720),
  (0x284E, 0x425241494C4C45205041545445524E20444F54532D3233343720),
  (0x284F, 0x425241494C4C45205041545445524E20444F54532D313233343720),
  (0x2850, 0x425241494C4C45205041545445524E20444F54532D353720),
  (0x2851, 0x425241494C4C45205041545445524E20444F54532D31353720),
  (0x2852, 0x425241494C4C45205041545445524E20444F54532D32353720),
  (0x2853, 0x425241494C4C45205041545445524E20444F54532D3132353720),
  (0x2854, 0x425241494C4C45205041545445524E20444F54532D33353720),
  (0x2855, 0x425241494C4C45205041545445524E20444F54532D3133353720),
  (0x2856, 0x425241494C4C45205041545445524E20444F54532D3233353720),
  (0x2857, 0x425241494C4C45205041545445524E20444F54532D313233353720),
  (0x2858, 0x425241494C4C45205041545445524E20444F54532D34353720),
  (0x2859, 0x425241494C4C45205041545445524E20444F54532D3134353720),
  (0x285A, 0x425241494C4C45205041545445524E20444F54532D3234353720),
  (0x285B, 0x425241494C4C45205041545445524E20444F54532D313234353720),
  (0x285C, 0x425241494C4C45205041545445524E20444F54532D3334353720),
  (0x285D, 0x425241494C4C45205041545445524E20444F54532D313334353720),
  (0x285E, 0x425241494C4C45205041545445524E20444F54532D323334353720),
  (0x285F, 0x425241494C4C45205041545445524E20444F54532D31323334353720),
  (0x2860, 0x425241494C4C45205041545445524E20444F54532D363720),
  (0x2861, 0x425241494C4C45205041545445524E20444F54532D31363720),
  (0x2862, 0x425241494C4C45205041545445524E20444F54532D32363720),
  (0x2863, 0x425241494C4C45205041545445524E20444F54532D3132363720),
  (0x2864, 0x425241494C4C45205041545445524E20444F54532D33363720),
  (0x2865, 0x425241494C4C45205041545445524E20444F54532D3133363720),
  (0x2866, 0x425241494C4C45205041545445524E20444F54532D3233363720),
  (0x2867, 0x425241494C4C45205041545445524E20444F54532D313233363720),
  (0x2868, 0x425241494C4C45205041545445524E20444F54532D34363720),
  (0x2869, 0x425241494C4C45205041545445524E20444F54532D3134363720),
  (0x286A, 0x425241494C4C45205041545445524E20444F54532D3234363720),
  (0x286B, 0x425241494C4C45205041545445524E20444F54532D313234363720),
  (0x286C, 0x425241494C4C45205041545445524E20444F54532D3334363720),
  (0x286D, 0x425241494C4C45205041545445524E20444F54532D313334363720),
  (0x286E, 0x425241494C4C45205041545445524E20444F54532D323334363720),
  (0x286F, 0x425241494C4C45205041545445524E20444F54532D31323334363720),
  (0x2870, 0x425241494C4C45205041545445524E20444F54532D35363720),
  (0x2871, 0x425241494C4C45205041545445524E20444F54532D3135363720),
  (0x2872, 0x425241494C4C45205041545445524E20444F54532D3235363720),
  (0x2873, 0x425241494C4C45205041545445524E20444F54532D313235363720),
  (0x2874, 0x425241494C4C45205041545445524E20444F54532D3335363720),
  (0x2875, 0x425241494C4C45205041545445524E20444F54532D313335363720),
  (0x2876, 0x425241494C4C45205041545445524E20444F54532D323335363720),
  (0x2877, 0x425241494C4C45205041545445524E20444F54532D31323335363720),
  (0x2878, 0x425241494C4C45205041545445524E20444F54532D3435363720),
  (0x2879, 0x425241494C4C45205041545445524E20444F54532D313435363720),
  (0x287A, 0x425241494C4C45205041545445524E20444F54532D323435363720),
  (0x287B, 0x425241494C4C45205041545445524E20444F54532D31323435363720),
  (0x287C, 0x425241494C4C45205041545445524E20444F54532D333435363720),
  (0x287D, 0x425241494C4C45205041545445524E20444F54532D31333435363720),
  (0x287E, 0x425241494C4C45205041545445524E20444F54532D32333435363720),
  (0x287F, 0x425241494C4C45205041545445524E20444F54532D3132333435363720),
  (0x2880, 0x425241494C4C45205041545445524E20444F54532D3820),
  (0x2881, 0x425241494C4C45205041545445524E20444F54532D313820),
  (0x2882, 0x425241494C4C45205041545445524E20444F54532D323820),
  (0x2883, 0x425241494C4C45205041545445524E20444F54532D31323820),
  (0x2884, 0x425241494C4C45205041545445524E20444F54532D333820),
  (0x2885, 0x425241494C4C45205041545445524E20444F54532D31333820),
  (0x2886, 0x425241494C4C45205041545445524E20444F54532D32333820),
  (0x2887, 0x425241494C4C45205041545445524E20444F54532D3132333820),
  (0x2888, 0x425241494C4C45205041545445524E20444F54532D343820)]
def names_144 : List (Nat × Nat) := [
  (0x2889, 0x425241494C4C45205041545445524E20444F54532D31343820),
  (0x288A, 0x425241494C4C45205041545445524E20444F54532D32343820),
  (0x288B, 0x425241494C4C45205041545445524E20444F54532D3132343820),
  (0x288C, 0x425241494C4C45205041545445524E20444F54532D33343820),
  (0x288D, 0x425241494C4C45205041545445524E20444F54532D3133343820),
  (0x288E, 0x425241494C4C45205041545445524E20444F54532D3233343820),
  (0x288F, 0x425241494C4C45205041545445524E20444F54532D313233343820),
  (0x2890, 0x425241494C4C45205041545445524E20444F54532D353820),
  (0x2891, 0x425241494C4C45205041545445524E20444F54532D31353820),
  (0x2892, 0x425241494C4C45205041545445524E20444F54532D32353820),
  (0x2893, 0x425241494C4C45205041545445524E20444F54532D3132353820),
  (0x2894, 0x425241494C4C45205041545445524E20444F54532D33353820),
  (0x2895, 0x425241494C4C45205041545445524E20444F54532D3133353820),
  (0x2896, 0x425241494C4C45205041545445524E20444F54532D3233353820),
  (0x2897, 0x425241494C4C45205041545445524E20444F54532D313233353820),
  (0x2898, 0x425241494C4C45205041545445524E20444F54532D34353820),
  (0x2899, 0x425241494C4C45205041545445524E20444F54532D3134353820),
  (0x289A, 0x425241494C4C45205041545445524E20444F54532D3234353820),
  (0x289B, 0x425241494C4C45205041545445524E20444F54532D313234353820),
  (0x289C, 0x425241494C4C45205041545445524E20444F54532D3334353820),
  (0x289D, 0x425241494C4C45205041545445524E20444F54532D313334353820),
  (0x289E, 0x425241494C4C45205041545445524E20444F54532D323334353820),
  (0x289F, 0x425241494C4C45205041545445524E20444F54532D31323334353820),
  (0x28A0, 0x425241494C4C45205041545445524E20444F54532D363820),
  (0x28A1, 0x425241494C4C45205041545445524E20444F54532D31363820),
  (0x28A2, 0x425241494C4C45205041545445524E20444F54532D32363820),
  (0x28A3, 0x425241494C4C45205041545445524E20444F54532D3132363820),
  (0x28A4, 0x425241494C4C45205041545445524E20444F54532D33363820),
  (0x28A5, 0x425241494C4C45205041545445524E20444F54532D3133363820),
  (0x28A6, 0x425241494C4C45205041545445524E20444F54532D3233363820),
  (0x28A7, 0x425241494C4C45205041545445524E20444F54532D313233363820),
  (0x28A8, 0x425241494C4C45205041545445524E20444F54532D34363820),
  (0x28A9, 0x425241494C4C45205041545445524E20444F54532D3134363820),
  (0x28AA, 0x425241494C4C45205041545445524E20444F54532D3234363820),
  (0x28AB, 0x425241494C4C45205041545445524E20444F54532D313234363820),
  (0x28AC, 0x425241494C4C45205041545445524E20444F54532D3334363820),
  (0x28AD, 0x425241494C4C45205041545445524E20444F54532D313334363820),
  (0x28AE, 0x425241494C4C45205041545445524E20444F54532D323334363820),
  (0x28AF, 0x425241494C4C45205041545445524E20444F54532D31323334363820),
  (0x28B0, 0x425241494C4C45205041545445524E20444F54532D35363820),
  (0x28B1, 0x425241494C4C45205041545445524E20444F54532D3135363820),
  (0x28B2, 0x425241494C4C45205041545445524E20444F54532D3235363820),
  (0x28B3, 0x425241494C4C45205041545445524E20444F54532D313235363820),
  (0x28B4, 0x425241494C4C45205041545445524E20444F54532D3335363820),
  (0x28B5, 0x425241494C4C45205041545445524E20444F54532D313335363820),
  (0x28B6, 0x425241494C4C45205041545445524E20444F54532D323335363820),
  (0x28B7, 0x425241494C4C45205041545445524E20444F54532D31323335363820),
  (0x28B8, 0x425241494C4C45205041545445524E20444F54532D3435363820),
  (0x28B9, 0x425241494C4C45205041545445524E20444F54532D313435363820),
  (0x28BA, 0x425241494C4C45205041545445524E20444F54532D323435363820),
  (0x28BB, 0x425241494C4C45205041545445524E20444F54532D31323435363820),
  (0x28BC, 0x425241494C4C45205041545445524E20444F54532D333435363820),
  (0x28BD, 0x425241494C4C45205041545445524E20444F54532D31333435363820),
  (0x28BE, 0x425241494C4C45205041545445524E20444F54532D32333435363820),
  (0x28BF, 0x425241494C4C45205041545445524E20444F54532D3132333435363820),
  (0x28C0, 0x425241494C4C45205041545445524E20444F54532D373820),
  (0x28C1, 0x425241494C4C45205041545445524E20444F54532D31373820),
  (0x28C2, 0x425241494C4C45205041545445524E20444F54532D32373820),
  (0x28C3, 0x425241494C4C45205041545445524E20444F54532D3132373820),
  (0x28C4, 0x425241494C4C45205041545445524E20444F54532D33373820),
  (0x28C5, 0x425241494C4C45205041545445524E20444F54532D3133373820),
  (0x28C6, 0x425241494C4C45205041545445524E20444F54532D3233373820),
  (0x28C7, 0x425241494C4C45205041545445524E20444F54532D313233373820),
  (0x28C8, 0x425241494C4C45205041545445524E20444F54532D34373820)]
def names_145 : List (Nat × Nat) := [
  (0x28C9, 0x425241494C4C45205041545445524E20444F54532D3134373820),
  (0x28CA, 0x425241494C4C45205041545445524E20444F54532D3234373820),
  (0x28CB, 0x425241494C4C45205041545445524E20444F54532D313234373820),
  (0x28CC, 0x425241494C4C45205041545445524E20444F54532D3334373820),
  (0x28CD, 0x425241494C4C45205041545445524E20444F54532D313334373820),
  (0x28CE, 0x425241494C4C45205041545445524E20444F54532D323334373820),
  (0x28CF, 0x425241494C4C45205041545445524E20444F54532D31323334373820),
  (0x28D0, 0x425241494C4C45205041545445524E20444F54532D35373820),
  (0x28D1, 0x425241494C4C45205041545445524E20444F54532D3135373820),
  (0x28D2, 0x425241494C4C45205041545445524E20444F54532D3235373820),
  (0x28D3, 0x425241494C4C45205041545445524E20444F54532D313235373820),
  (0x28D4, 0x425241494C4C45205041545445524E20444F54532D3335373820),
  (0x28D5, 0x425241494C4C45205041545445524E20444F54532D313335373820),
  (0x28D6, 0x425241494C4C45205041545445524E20444F54532D323335373820),
  (0x28D7, 0x425241494C4C45205041545445524E20444F54532D31323335373820),
  (0x28D8, 0x425241494C4C45205041545445524E20444F54532D3435373820),
  (0x28D9, 0x425241494C4C45205041545445524E20444F54532D313435373820),
  (0x28DA, 0x425241494C4C45205041545445524E20444F54532D323435373820),
  (0x28DB, 0x425241494C4C45205041545445524E20444F54532D31323435373820),
  (0x28DC, 0x425241494C4C45205041545445524E20444F54532D333435373820),
  (0x28DD, 0x425241494C4C45205041545445524E20444F54532D31333435373820),
  (0x28DE, 0x425241494C4C45205041545445524E20444F54532D32333435373820),
  (0x28DF, 0x425241494C4C45205041545445524E20444F54532D3132333435373820),
  (0x28E0, 0x425241494C4C45205041545445524E20444F54532D36373820),
  (0x28E1, 0x425241494C4C45205041545445524E20444F54532D3136373820),
  (0x28E2, 0x425241494C4C45205041545445524E20444F54532D3236373820),
  (0x28E3, 0x425241494C4C45205041545445524E20444F54532D313236373820),
  (0x28E4, 0x425241494C4C45205041545445524E20444F54532D3336373820),
  (0x28E5, 0x425241494C4C45205041545445524E20444F54532D313336373820),
  (0x28E6, 0x425241494C4C45205041545445524E20444F54532D323336373820),
  (0x28E7, 0x425241494C4C45205041545445524E20444F54532D31323336373820),
  (0x28E8, 0x425241494C4C45205041545445524E20444F54532D3436373820),
  (0x28E9, 0x425241494C4C45205041545445524E20444F54532D313436373820),
  (0x28EA, 0x425241494C4C45205041545445524E20444F54532D323436373820),
  (0x28EB, 0x425241494C4C45205041545445524E20444F54532D31323436373820),
  (0x28EC, 0x425241494C4C45205041545445524E20444F54532D333436373820),
  (0x28ED, 0x425241494C4C45205041545445524E20444F54532D31333436373820),
  (0x28EE, 0x425241494C4C45205041545445524E20444F54532D32333436373820),
  (0x28EF, 0x425241494C4C45205041545445524E20444F54532D3132333436373820),
  (0x28F0, 0x425241494C4C45205041545445524E20444F54532D3536373820),
  (0x28F1, 0x425241494C4C45205041545445524E20444F54532D313536373820),
  (0x28F2, 0x425241494C4C45205041545445524E20444F54532D323536373820),
  (0x28F3, 0x425241494C4C45205041545445524E20444F54532D31323536373820),
  (0x28F4, 0x425241494C4C45205041545445524E20444F54532D333536373820),
  (0x28F5, 0x425241494C4C45205041545445524E20444F54532D31333536373820),
  (0x28F6, 0x425241494C4C45205041545445524E20444F54532D32333536373820),
  (0x28F7, 0x425241494C4C45205041545445524E20444F54532D3132333536373820),
  (0x28F8, 0x425241494C4C45205041545445524E20444F54532D343536373820),
  (0x28F9, 0x425241494C4C45205041545445524E20444F54532D31343536373820),
  (0x28FA, 0x425241494C4C45205041545445524E20444F54532D32343536373820),
  (0x28FB, 0x425241494C4C45205041545445524E20444F54532D3132343536373820),
  (0x28FC, 0x425241494C4C45205041545445524E20444F54532D33343536373820),
  (0x28FD, 0x425241494C4C45205041545445524E20444F54532D3133343536373820),
  (0x28FE, 0x425241494C4C45205041545445524E20444F54532D3233343536373820),
  (0x28FF, 0x425241494C4C45205041545445524E20444F54532D313233343536373820),
  (0x2900, 0x524947485457415244532054574F2D484541444544204152524F57205749544820564552544943414C205354524F4B4520),
  (0x2901, 0x524947485457415244532054574F2D484541444544204152524F57205749544820444F55424C4520564552544943414C205354524F4B4520),
  (0x2902, 0x4C454654574152445320444F55424C45204152524F57205749544820564552544943414C205354524F4B4520),
  (0x2903, 0x5249474854574152445320444F55424C45204152524F57205749544820564552544943414C205354524F4B4520),
  (0x2904, 0x4C45465420524947485420444F55424C45204152524F57205749544820564552544943414C205354524F4B4520),
  (0x2905, 0x524947485457415244532054574F2D484541444544204152524F572046524F4D2042415220),
  (0x2906, 0x4C454654574152445320444F55424C45204152524F572046524F4D2042415220),
  (0x2907, 0x5249474854574152445320444F55424C45204152524F572046524F4D2042415220),
  (0x2908, 0x444F574E5741524453204152524F57205749544820484F52495A4F4E54414C205354524F4B4520)]
def names_146 : List (Nat × Nat) := [
  (0x2909, 0x55505741524453204152524F57205749544820484F52495A4F4E54414C205354524F4B4520),
  (0x290A, 0x5550574152445320545249504C45204152524F5720),
  (0x290B, 0x444F574E574152445320545249504C45204152524F5720),
  (0x290C, 0x4C454654574152445320444F55424C452044415348204152524F5720),
  (0x290D, 0x5249474854574152445320444F55424C452044415348204152524F5720),
  (0x290E, 0x4C454654574152445320545249504C452044415348204152524F5720),
  (0x290F, 0x5249474854574152445320545249504C452044415348204152524F5720),
  (0x2910, 0x524947485457415244532054574F2D48454144454420545249504C452044415348204152524F5720),
  (0x2911, 0x52494748545741524453204152524F57205749544820444F54544544205354454D20),
  (0x2912, 0x55505741524453204152524F5720544F2042415220),
  (0x2913, 0x444F574E5741524453204152524F5720544F2042415220),
  (0x2914, 0x52494748545741524453204152524F572057495448205441494C205749544820564552544943414C205354524F4B4520),
  (0x2915, 0x52494748545741524453204152524F572057495448205441494C205749544820444F55424C4520564552544943414C205354524F4B4520),
  (0x2916, 0x524947485457415244532054574F2D484541444544204152524F572057495448205441494C20),
  (0x2917, 0x524947485457415244532054574F2D484541444544204152524F572057495448205441494C205749544820564552544943414C205354524F4B4520),
  (0x2918, 0x524947485457415244532054574F2D484541444544204152524F572057495448205441494C205749544820444F55424C4520564552544943414C205354524F4B4520),
  (0x2919, 0x4C4546545741524453204152524F572D5441494C20),
  (0x291A, 0x52494748545741524453204152524F572D5441494C20),
  (0x291B, 0x4C454654574152445320444F55424C45204152524F572D5441494C20),
  (0x291C, 0x5249474854574152445320444F55424C45204152524F572D5441494C20),
  (0x291D, 0x4C4546545741524453204152524F5720544F20424C41434B204449414D4F4E4420),
  (0x291E, 0x52494748545741524453204152524F5720544F20424C41434B204449414D4F4E4420),
  (0x291F, 0x4C4546545741524453204152524F572046524F4D2042415220544F20424C41434B204449414D4F4E4420),
  (0x2920, 0x52494748545741524453204152524F572046524F4D2042415220544F20424C41434B204449414D4F4E4420),
  (0x2921, 0x4E4F525448205745535420414E4420534F5554482045415354204152524F5720),
  (0x2922, 0x4E4F525448204541535420414E4420534F5554482057455354204152524F5720),
  (0x2923, 0x4E4F5254482057455354204152524F57205749544820484F4F4B20),
  (0x2924, 0x4E4F5254482045415354204152524F57205749544820484F4F4B20),
  (0x2925, 0x534F5554482045415354204152524F57205749544820484F4F4B20),
  (0x2926, 0x534F5554482057455354204152524F57205749544820484F4F4B20),
  (0x2927, 0x4E4F5254482057455354204152524F5720414E44204E4F5254482045415354204152524F5720),
  (0x2928, 0x4E4F5254482045415354204152524F5720414E4420534F5554482045415354204152524F5720),
  (0x2929, 0x534F5554482045415354204152524F5720414E4420534F5554482057455354204152524F5720),
  (0x292A, 0x534F5554482057455354204152524F5720414E44204E4F5254482057455354204152524F5720),
  (0x292B, 0x524953494E4720444941474F4E414C2043524F5353494E472046414C4C494E4720444941474F4E414C20),
  (0x292C, 0x46414C4C494E4720444941474F4E414C2043524F5353494E4720524953494E4720444941474F4E414C20),
  (0x292D, 0x534F5554482045415354204152524F572043524F5353494E47204E4F5254482045415354204152524F5720),
  (0x292E, 0x4E4F5254482045415354204152524F572043524F5353494E4720534F5554482045415354204152524F5720),
  (0x292F, 0x46414C4C494E4720444941474F4E414C2043524F5353494E47204E4F5254482045415354204152524F5720),
  (0x2930, 0x524953494E4720444941474F4E414C2043524F5353494E4720534F5554482045415354204152524F5720),
  (0x2931, 0x4E4F5254482045415354204152524F572043524F5353494E47204E4F5254482057455354204152524F5720),
  (0x2932, 0x4E4F5254482057455354204152524F572043524F5353494E47204E4F5254482045415354204152524F5720),
  (0x2933, 0x57415645204152524F5720504F494E54494E47204449524543544C5920524947485420),
  (0x2934, 0x4152524F5720504F494E54494E472052494748545741524453205448454E2043555256494E47205550574152445320),
  (0x2935, 0x4152524F5720504F494E54494E472052494748545741524453205448454E2043555256494E4720444F574E574152445320),
  (0x2936, 0x4152524F5720504F494E54494E4720444F574E5741524453205448454E2043555256494E47204C454654574152445320),
  (0x2937, 0x4152524F5720504F494E54494E4720444F574E5741524453205448454E2043555256494E47205249474854574152445320),
  (0x2938, 0x52494748542D534944452041524320434C4F434B57495345204152524F5720),
  (0x2939, 0x4C4546542D534944452041524320414E5449434C4F434B57495345204152524F5720),
  (0x293A, 0x544F502041524320414E5449434C4F434B57495345204152524F5720),
  (0x293B, 0x424F54544F4D2041524320414E5449434C4F434B57495345204152524F5720),
  (0x293C, 0x544F502041524320434C4F434B57495345204152524F572057495448204D494E555320),
  (0x293D, 0x544F502041524320414E5449434C4F434B57495345204152524F57205749544820504C555320),
  (0x293E, 0x4C4F5745522052494748542053454D4943495243554C415220434C4F434B57495345204152524F5720),
  (0x293F, 0x4C4F574552204C4546542053454D4943495243554C415220414E5449434C4F434B57495345204152524F5720),
  (0x2940, 0x414E5449434C4F434B5749534520434C4F53454420434952434C45204152524F5720),
  (0x2941, 0x434C4F434B5749534520434C4F53454420434952434C45204152524F5720),
  (0x2942, 0x52494748545741524453204152524F572041424F56452053484F5254204C4546545741524453204152524F5720),
  (0x2943, 0x4C4546545741524453204152524F572041424F56452053484F52542052494748545741524453204152524F5720),
  (0x2944, 0x53484F52542052494748545741524453204152524F572041424F5645204C4546545741524453204152524F5720),
  (0x2945, 0x52494748545741524453204152524F57205749544820504C55532042454C4F5720),
  (0x2946, 0x4C4546545741524453204152524F57205749544820504C55532042454C4F5720),
  (0x2947, 0x52494748545741524453204152524F57205448524F554748205820),
  (0x2948, 0x4C454654205249474854204152524F57205448524F55474820534D414C4C20434952434C4520)]
def names_147 : List (Nat × Nat) := [
  (0x2949, 0x555057415244532054574F2D484541444544204152524F572046524F4D20534D414C4C20434952434C4520),
  (0x294A, 0x4C4546542042415242205550205249474854204241524220444F574E20484152504F4F4E20),
  (0x294B, 0x4C454654204241524220444F574E205249474854204241524220555020484152504F4F4E20),
  (0x294C, 0x5550204241524220524947485420444F574E2042415242204C45465420484152504F4F4E20),
  (0x294D, 0x55502042415242204C45465420444F574E204241524220524947485420484152504F4F4E20),
  (0x294E, 0x4C4546542042415242205550205249474854204241524220555020484152504F4F4E20),
  (0x294F, 0x5550204241524220524947485420444F574E204241524220524947485420484152504F4F4E20),
  (0x2950, 0x4C454654204241524220444F574E205249474854204241524220444F574E20484152504F4F4E20),
  (0x2951, 0x55502042415242204C45465420444F574E2042415242204C45465420484152504F4F4E20),
  (0x2952, 0x4C454654574152445320484152504F4F4E2057495448204241524220555020544F2042415220),
  (0x2953, 0x5249474854574152445320484152504F4F4E2057495448204241524220555020544F2042415220),
  (0x2954, 0x5550574152445320484152504F4F4E2057495448204241524220524947485420544F2042415220),
  (0x2955, 0x444F574E574152445320484152504F4F4E2057495448204241524220524947485420544F2042415220),
  (0x2956, 0x4C454654574152445320484152504F4F4E2057495448204241524220444F574E20544F2042415220),
  (0x2957, 0x5249474854574152445320484152504F4F4E2057495448204241524220444F574E20544F2042415220),
  (0x2958, 0x5550574152445320484152504F4F4E20574954482042415242204C45465420544F2042415220),
  (0x2959, 0x444F574E574152445320484152504F4F4E20574954482042415242204C45465420544F2042415220),
  (0x295A, 0x4C454654574152445320484152504F4F4E205749544820424152422055502046524F4D2042415220),
  (0x295B, 0x5249474854574152445320484152504F4F4E205749544820424152422055502046524F4D2042415220),
  (0x295C, 0x5550574152445320484152504F4F4E205749544820424152422052494748542046524F4D2042415220),
  (0x295D, 0x444F574E574152445320484152504F4F4E205749544820424152422052494748542046524F4D2042415220),
  (0x295E, 0x4C454654574152445320484152504F4F4E2057495448204241524220444F574E2046524F4D2042415220),
  (0x295F, 0x5249474854574152445320484152504F4F4E2057495448204241524220444F574E2046524F4D2042415220),
  (0x2960, 0x5550574152445320484152504F4F4E20574954482042415242204C4546542046524F4D2042415220),
  (0x2961, 0x444F574E574152445320484152504F4F4E20574954482042415242204C4546542046524F4D2042415220),
  (0x2962, 0x4C454654574152445320484152504F4F4E205749544820424152422055502041424F5645204C454654574152445320484152504F4F4E2057495448204241524220444F574E20),
  (0x2963, 0x5550574152445320484152504F4F4E20574954482042415242204C45465420424553494445205550574152445320484152504F4F4E2057495448204241524220524947485420),
  (0x2964, 0x5249474854574152445320484152504F4F4E205749544820424152422055502041424F5645205249474854574152445320484152504F4F4E2057495448204241524220444F574E20),
  (0x2965, 0x444F574E574152445320484152504F4F4E20574954482042415242204C4546542042455349444520444F574E574152445320484152504F4F4E2057495448204241524220524947485420),
  (0x2966, 0x4C454654574152445320484152504F4F4E205749544820424152422055502041424F5645205249474854574152445320484152504F4F4E2057495448204241524220555020),
  (0x2967, 0x4C454654574152445320484152504F4F4E2057495448204241524220444F574E2041424F5645205249474854574152445320484152504F4F4E2057495448204241524220444F574E20),
  (0x2968, 0x5249474854574152445320484152504F4F4E205749544820424152422055502041424F5645204C454654574152445320484152504F4F4E2057495448204241524220555020),
  (0x2969, 0x5249474854574152445320484152504F4F4E2057495448204241524220444F574E2041424F5645204C454654574152445320484152504F4F4E2057495448204241524220444F574E20),
  (0x296A, 0x4C454654574152445320484152504F4F4E205749544820424152422055502041424F5645204C4F4E47204441534820),
  (0x296B, 0x4C454654574152445320484152504F4F4E2057495448204241524220444F574E2042454C4F57204C4F4E47204441534820),
  (0x296C, 0x5249474854574152445320484152504F4F4E205749544820424152422055502041424F5645204C4F4E47204441534820),
  (0x296D, 0x5249474854574152445320484152504F4F4E2057495448204241524220444F574E2042454C4F57204C4F4E47204441534820),
  (0x296E, 0x5550574152445320484152504F4F4E20574954482042415242204C4546542042455349444520444F574E574152445320484152504F4F4E2057495448204241524220524947485420),
  (0x296F, 0x444F574E574152445320484152504F4F4E20574954482042415242204C45465420424553494445205550574152445320484152504F4F4E2057495448204241524220524947485420),
  (0x2970, 0x524947485420444F55424C45204152524F57205749544820524F554E444544204845414420),
  (0x2971, 0x455155414C53205349474E2041424F56452052494748545741524453204152524F5720),
  (0x2972, 0x54494C4445204F50455241544F522041424F56452052494748545741524453204152524F5720),
  (0x2973, 0x4C4546545741524453204152524F572041424F56452054494C4445204F50455241544F5220),
  (0x2974, 0x52494748545741524453204152524F572041424F56452054494C4445204F50455241544F5220),
  (0x2975, 0x52494748545741524453204152524F572041424F564520414C4D4F535420455155414C20544F20),
  (0x2976, 0x4C4553532D5448414E2041424F5645204C4546545741524453204152524F5720),
  (0x2977, 0x4C4546545741524453204152524F57205448524F554748204C4553532D5448414E20),
  (0x2978, 0x475245415445522D5448414E2041424F56452052494748545741524453204152524F5720),
  (0x2979, 0x5355425345542041424F56452052494748545741524453204152524F5720),
  (0x297A, 0x4C4546545741524453204152524F57205448524F5547482053554253455420),
  (0x297B, 0x53555045525345542041424F5645204C4546545741524453204152524F5720),
  (0x297C, 0x4C4546542046495348205441494C20),
  (0x297D, 0x52494748542046495348205441494C20),
  (0x297E, 0x55502046495348205441494C20),
  (0x297F, 0x444F574E2046495348205441494C20),
  (0x2980, 0x545249504C4520564552544943414C204241522044454C494D4954455220),
  (0x2981, 0x5A204E4F544154494F4E2053504F5420),
  (0x2982, 0x5A204E4F544154494F4E205459504520434F4C4F4E20),
  (0x2983, 0x4C454654205748495445204355524C5920425241434B455420),
  (0x2984, 0x5249474854205748495445204355524C5920425241434B455420),
  (0x2985, 0x4C45465420574849544520504152454E54484553495320),
  (0x2986, 0x524947485420574849544520504152454E54484553495320),
  (0x2987, 0x5A204E4F544154494F4E204C45465420494D41474520425241434B455420),
  (0x2988, 0x5A204E4F544154494F4E20524947485420494D41474520425241434B455420)]
def names_148 : List (Nat × Nat) := [
  (0x2989, 0x5A204E4F544154494F4E204C4546542042494E44494E4720425241434B455420),
  (0x298A, 0x5A204E4F544154494F4E2052494748542042494E44494E4720425241434B455420),
  (0x298B, 0x4C4546542053515541524520425241434B4554205749544820554E44455242415220),
  (0x298C, 0x52494748542053515541524520425241434B4554205749544820554E44455242415220),
  (0x298D, 0x4C4546542053515541524520425241434B45542057495448205449434B20494E20544F5020434F524E455220),
  (0x298E, 0x52494748542053515541524520425241434B45542057495448205449434B20494E20424F54544F4D20434F524E455220),
  (0x298F, 0x4C4546542053515541524520425241434B45542057495448205449434B20494E20424F54544F4D20434F524E455220),
  (0x2990, 0x52494748542053515541524520425241434B45542057495448205449434B20494E20544F5020434F524E455220),
  (0x2991, 0x4C45465420414E474C4520425241434B4554205749544820444F5420),
  (0x2992, 0x524947485420414E474C4520425241434B4554205749544820444F5420),
  (0x2993, 0x4C45465420415243204C4553532D5448414E20425241434B455420),
  (0x2994, 0x52494748542041524320475245415445522D5448414E20425241434B455420),
  (0x2995, 0x444F55424C45204C4546542041524320475245415445522D5448414E20425241434B455420),
  (0x2996, 0x444F55424C4520524947485420415243204C4553532D5448414E20425241434B455420),
  (0x2997, 0x4C45465420424C41434B20544F52544F495345205348454C4C20425241434B455420),
  (0x2998, 0x524947485420424C41434B20544F52544F495345205348454C4C20425241434B455420),
  (0x2999, 0x444F545445442046454E434520),
  (0x299A, 0x564552544943414C205A49475A4147204C494E4520),
  (0x299B, 0x4D4541535552454420414E474C45204F50454E494E47204C45465420),
  (0x299C, 0x524947485420414E474C452056415249414E5420574954482053515541524520),
  (0x299D, 0x4D4541535552454420524947485420414E474C45205749544820444F5420),
  (0x299E, 0x414E474C452057495448205320494E5349444520),
  (0x299F, 0x414355544520414E474C4520),
  (0x29A0, 0x53504845524943414C20414E474C45204F50454E494E47204C45465420),
  (0x29A1, 0x53504845524943414C20414E474C45204F50454E494E4720555020),
  (0x29A2, 0x5455524E454420414E474C4520),
  (0x29A3, 0x524556455253454420414E474C4520),
  (0x29A4, 0x414E474C45205749544820554E44455242415220),
  (0x29A5, 0x524556455253454420414E474C45205749544820554E44455242415220),
  (0x29A6, 0x4F424C4951554520414E474C45204F50454E494E4720555020),
  (0x29A7, 0x4F424C4951554520414E474C45204F50454E494E4720444F574E20),
  (0x29A8, 0x4D4541535552454420414E474C452057495448204F50454E2041524D20454E44494E4720494E204152524F5720504F494E54494E4720555020414E4420524947485420),
  (0x29A9, 0x4D4541535552454420414E474C452057495448204F50454E2041524D20454E44494E4720494E204152524F5720504F494E54494E4720555020414E44204C45465420),
  (0x29AA, 0x4D4541535552454420414E474C452057495448204F50454E2041524D20454E44494E4720494E204152524F5720504F494E54494E4720444F574E20414E4420524947485420),
  (0x29AB, 0x4D4541535552454420414E474C452057495448204F50454E2041524D20454E44494E4720494E204152524F5720504F494E54494E4720444F574E20414E44204C45465420),
  (0x29AC, 0x4D4541535552454420414E474C452057495448204F50454E2041524D20454E44494E4720494E204152524F5720504F494E54494E4720524947485420414E4420555020),
  (0x29AD, 0x4D4541535552454420414E474C452057495448204F50454E2041524D20454E44494E4720494E204152524F5720504F494E54494E47204C45465420414E4420555020),
  (0x29AE, 0x4D4541535552454420414E474C452057495448204F50454E2041524D20454E44494E4720494E204152524F5720504F494E54494E4720524947485420414E4420444F574E20),
  (0x29AF, 0x4D4541535552454420414E474C452057495448204F50454E2041524D20454E44494E4720494E204152524F5720504F494E54494E47204C45465420414E4420444F574E20),
  (0x29B0, 0x524556455253454420454D5054592053455420),
  (0x29B1, 0x454D505459205345542057495448204F56455242415220),
  (0x29B2, 0x454D50545920534554205749544820534D414C4C20434952434C452041424F564520),
  (0x29B3, 0x454D505459205345542057495448205249474854204152524F572041424F564520),
  (0x29B4, 0x454D505459205345542057495448204C454654204152524F572041424F564520),
  (0x29B5, 0x434952434C45205749544820484F52495A4F4E54414C2042415220),
  (0x29B6, 0x434952434C454420564552544943414C2042415220),
  (0x29B7, 0x434952434C454420504152414C4C454C20),
  (0x29B8, 0x434952434C4544205245564552534520534F4C4944555320),
  (0x29B9, 0x434952434C45442050455250454E444943554C415220),
  (0x29BA, 0x434952434C45204449564944454420425920484F52495A4F4E54414C2042415220414E4420544F502048414C46204449564944454420425920564552544943414C2042415220),
  (0x29BB, 0x434952434C452057495448205355504552494D504F534544205820),
  (0x29BC, 0x434952434C454420414E5449434C4F434B574953452D524F5441544544204449564953494F4E205349474E20),
  (0x29BD, 0x5550204152524F57205448524F55474820434952434C4520),
  (0x29BE, 0x434952434C45442057484954452042554C4C455420),
  (0x29BF, 0x434952434C45442042554C4C455420),
  (0x29C0, 0x434952434C4544204C4553532D5448414E20),
  (0x29C1, 0x434952434C454420475245415445522D5448414E20),
  (0x29C2, 0x434952434C45205749544820534D414C4C20434952434C4520544F2054484520524947485420),
  (0x29C3, 0x434952434C4520574954482054574F20484F52495A4F4E54414C205354524F4B455320544F2054484520524947485420),
  (0x29C4, 0x5351554152454420524953494E4720444941474F4E414C20534C41534820),
  (0x29C5, 0x535155415245442046414C4C494E4720444941474F4E414C20534C41534820),
  (0x29C6, 0x5351554152454420415354455249534B20),
  (0x29C7, 0x5351554152454420534D414C4C20434952434C4520),
  (0x29C8, 0x535155415245442053515541524520)]
def names_149 : List (Nat × Nat) := [
  (0x29C9, 0x54574F204A4F494E4544205351554152455320),
  (0x29CA, 0x545249414E474C45205749544820444F542041424F564520),
  (0x29CB, 0x545249414E474C45205749544820554E44455242415220),
  (0x29CC, 0x5320494E20545249414E474C4520),
  (0x29CD, 0x545249414E474C4520574954482053455249465320415420424F54544F4D20),
  (0x29CE, 0x524947485420545249414E474C452041424F5645204C45465420545249414E474C4520),
  (0x29CF, 0x4C45465420545249414E474C452042455349444520564552544943414C2042415220),
  (0x29D0, 0x564552544943414C204241522042455349444520524947485420545249414E474C4520),
  (0x29D1, 0x424F575449452057495448204C4546542048414C4620424C41434B20),
  (0x29D2, 0x424F5754494520574954482052494748542048414C4620424C41434B20),
  (0x29D3, 0x424C41434B20424F5754494520),
  (0x29D4, 0x54494D45532057495448204C4546542048414C4620424C41434B20),
  (0x29D5, 0x54494D455320574954482052494748542048414C4620424C41434B20),
  (0x29D6, 0x574849544520484F5552474C41535320),
  (0x29D7, 0x424C41434B20484F5552474C41535320),
  (0x29D8, 0x4C45465420574947474C592046454E434520),
  (0x29D9, 0x524947485420574947474C592046454E434520),
  (0x29DA, 0x4C45465420444F55424C4520574947474C592046454E434520),
  (0x29DB, 0x524947485420444F55424C4520574947474C592046454E434520),
  (0x29DC, 0x494E434F4D504C45544520494E46494E49545920),
  (0x29DD, 0x544945204F56455220494E46494E49545920),
  (0x29DE, 0x494E46494E495459204E454741544544205749544820564552544943414C2042415220),
  (0x29DF, 0x444F55424C452D454E444544204D554C54494D415020),
  (0x29E0, 0x535155415245205749544820434F4E544F55524544204F55544C494E4520),
  (0x29E1, 0x494E4352454153455320415320),
  (0x29E2, 0x53485546464C452050524F4455435420),
  (0x29E3, 0x455155414C53205349474E20414E4420534C414E54454420504152414C4C454C20),
  (0x29E4, 0x455155414C53205349474E20414E4420534C414E54454420504152414C4C454C20574954482054494C44452041424F564520),
  (0x29E5, 0x4944454E544943414C20544F20414E4420534C414E54454420504152414C4C454C20),
  (0x29E6, 0x474C4549434820535441524B20),
  (0x29E7, 0x544845524D4F44594E414D494320),
  (0x29E8, 0x444F574E2D504F494E54494E4720545249414E474C452057495448204C4546542048414C4620424C41434B20),
  (0x29E9, 0x444F574E2D504F494E54494E4720545249414E474C4520574954482052494748542048414C4620424C41434B20),
  (0x29EA, 0x424C41434B204449414D4F4E44205749544820444F574E204152524F5720),
  (0x29EB, 0x424C41434B204C4F5A454E474520),
  (0x29EC, 0x574849544520434952434C45205749544820444F574E204152524F5720),
  (0x29ED, 0x424C41434B20434952434C45205749544820444F574E204152524F5720),
  (0x29EE, 0x4552524F522D4241525245442057484954452053515541524520),
  (0x29EF, 0x4552524F522D42415252454420424C41434B2053515541524520),
  (0x29F0, 0x4552524F522D424152524544205748495445204449414D4F4E4420),
  (0x29F1, 0x4552524F522D42415252454420424C41434B204449414D4F4E4420),
  (0x29F2, 0x4552524F522D42415252454420574849544520434952434C4520),
  (0x29F3, 0x4552524F522D42415252454420424C41434B20434952434C4520),
  (0x29F4, 0x52554C452D44454C4159454420),
  (0x29F5, 0x5245564552534520534F4C49445553204F50455241544F5220),
  (0x29F6, 0x534F4C494455532057495448204F56455242415220),
  (0x29F7, 0x5245564552534520534F4C49445553205749544820484F52495A4F4E54414C205354524F4B4520),
  (0x29F8, 0x42494720534F4C4944555320),
  (0x29F9, 0x424947205245564552534520534F4C4944555320),
  (0x29FA, 0x444F55424C4520504C555320),
  (0x29FB, 0x545249504C4520504C555320),
  (0x29FC, 0x4C4546542D504F494E54494E472043555256454420414E474C4520425241434B455420),
  (0x29FD, 0x52494748542D504F494E54494E472043555256454420414E474C4520425241434B455420),
  (0x29FE, 0x54494E5920),
  (0x29FF, 0x4D494E5920),
  (0x2A00, 0x4E2D41525920434952434C454420444F54204F50455241544F5220),
  (0x2A01, 0x4E2D41525920434952434C454420504C5553204F50455241544F5220),
  (0x2A02, 0x4E2D41525920434952434C45442054494D4553204F50455241544F5220),
  (0x2A03, 0x4E2D41525920554E494F4E204F50455241544F52205749544820444F5420),
  (0x2A04, 0x4E2D41525920554E494F4E204F50455241544F52205749544820504C555320),
  (0x2A05, 0x4E2D4152592053515541524520494E54455253454354494F4E204F50455241544F5220),
  (0x2A06, 0x4E2D4152592053515541524520554E494F4E204F50455241544F5220),
  (0x2A07, 0x54574F204C4F474943414C20414E44204F50455241544F5220),
  (0x2A08, 0x54574F204C4F474943414C204F52204F50455241544F5220)]
def names_150 : List (Nat × Nat) := [
  (0x2A09, 0x4E2D4152592054494D4553204F50455241544F5220),
  (0x2A0A, 0x4D4F44554C4F2054574F2053554D20),
  (0x2A0B, 0x53554D4D4154494F4E205749544820494E54454752414C20),
  (0x2A0C, 0x515541445255504C4520494E54454752414C204F50455241544F5220),
  (0x2A0D, 0x46494E495445205041525420494E54454752414C20),
  (0x2A0E, 0x494E54454752414C205749544820444F55424C45205354524F4B4520),
  (0x2A0F, 0x494E54454752414C2041564552414745205749544820534C41534820),
  (0x2A10, 0x43495243554C4154494F4E2046554E4354494F4E20),
  (0x2A11, 0x414E5449434C4F434B5749534520494E544547524154494F4E20),
  (0x2A12, 0x4C494E4520494E544547524154494F4E20574954482052454354414E47554C415220504154482041524F554E4420504F4C4520),
  (0x2A13, 0x4C494E4520494E544547524154494F4E20574954482053454D4943495243554C415220504154482041524F554E4420504F4C4520),
  (0x2A14, 0x4C494E4520494E544547524154494F4E204E4F5420494E434C5544494E472054484520504F4C4520),
  (0x2A15, 0x494E54454752414C2041524F554E44204120504F494E54204F50455241544F5220),
  (0x2A16, 0x5155415445524E494F4E20494E54454752414C204F50455241544F5220),
  (0x2A17, 0x494E54454752414C2057495448204C4546545741524453204152524F57205749544820484F4F4B20),
  (0x2A18, 0x494E54454752414C20574954482054494D4553205349474E20),
  (0x2A19, 0x494E54454752414C205749544820494E54455253454354494F4E20),
  (0x2A1A, 0x494E54454752414C205749544820554E494F4E20),
  (0x2A1B, 0x494E54454752414C2057495448204F56455242415220),
  (0x2A1C, 0x494E54454752414C205749544820554E44455242415220),
  (0x2A1D, 0x4A4F494E20),
  (0x2A1E, 0x4C41524745204C45465420545249414E474C45204F50455241544F5220),
  (0x2A1F, 0x5A204E4F544154494F4E20534348454D4120434F4D504F534954494F4E20),
  (0x2A20, 0x5A204E4F544154494F4E20534348454D4120504950494E4720),
  (0x2A21, 0x5A204E4F544154494F4E20534348454D412050524F4A454354494F4E20),
  (0x2A22, 0x504C5553205349474E205749544820534D414C4C20434952434C452041424F564520),
  (0x2A23, 0x504C5553205349474E20574954482043495243554D464C455820414343454E542041424F564520),
  (0x2A24, 0x504C5553205349474E20574954482054494C44452041424F564520),
  (0x2A25, 0x504C5553205349474E205749544820444F542042454C4F5720),
  (0x2A26, 0x504C5553205349474E20574954482054494C44452042454C4F5720),
  (0x2A27, 0x504C5553205349474E2057495448205355425343524950542054574F20),
  (0x2A28, 0x504C5553205349474E205749544820424C41434B20545249414E474C4520),
  (0x2A29, 0x4D494E5553205349474E205749544820434F4D4D412041424F564520),
  (0x2A2A, 0x4D494E5553205349474E205749544820444F542042454C4F5720),
  (0x2A2B, 0x4D494E5553205349474E20574954482046414C4C494E4720444F545320),
  (0x2A2C, 0x4D494E5553205349474E205749544820524953494E4720444F545320),
  (0x2A2D, 0x504C5553205349474E20494E204C4546542048414C4620434952434C4520),
  (0x2A2E, 0x504C5553205349474E20494E2052494748542048414C4620434952434C4520),
  (0x2A2F, 0x564543544F52204F522043524F53532050524F4455435420),
  (0x2A30, 0x4D554C5449504C49434154494F4E205349474E205749544820444F542041424F564520),
  (0x2A31, 0x4D554C5449504C49434154494F4E205349474E205749544820554E44455242415220),
  (0x2A32, 0x53454D494449524543542050524F44554354205749544820424F54544F4D20434C4F53454420),
  (0x2A33, 0x534D4153482050524F4455435420),
  (0x2A34, 0x4D554C5449504C49434154494F4E205349474E20494E204C4546542048414C4620434952434C4520),
  (0x2A35, 0x4D554C5449504C49434154494F4E205349474E20494E2052494748542048414C4620434952434C4520),
  (0x2A36, 0x434952434C4544204D554C5449504C49434154494F4E205349474E20574954482043495243554D464C455820414343454E5420),
  (0x2A37, 0x4D554C5449504C49434154494F4E205349474E20494E20444F55424C4520434952434C4520),
  (0x2A38, 0x434952434C4544204449564953494F4E205349474E20),
  (0x2A39, 0x504C5553205349474E20494E20545249414E474C4520),
  (0x2A3A, 0x4D494E5553205349474E20494E20545249414E474C4520),
  (0x2A3B, 0x4D554C5449504C49434154494F4E205349474E20494E20545249414E474C4520),
  (0x2A3C, 0x494E544552494F522050524F4455435420),
  (0x2A3D, 0x524947485448414E4420494E544552494F522050524F4455435420),
  (0x2A3E, 0x5A204E4F544154494F4E2052454C4154494F4E414C20434F4D504F534954494F4E20),
  (0x2A3F, 0x414D414C47414D4154494F4E204F5220434F50524F4455435420),
  (0x2A40, 0x494E54455253454354494F4E205749544820444F5420),
  (0x2A41, 0x554E494F4E2057495448204D494E5553205349474E20),
  (0x2A42, 0x554E494F4E2057495448204F56455242415220),
  (0x2A43, 0x494E54455253454354494F4E2057495448204F56455242415220),
  (0x2A44, 0x494E54455253454354494F4E2057495448204C4F474943414C20414E4420),
  (0x2A45, 0x554E494F4E2057495448204C4F474943414C204F5220),
  (0x2A46, 0x554E494F4E2041424F564520494E54455253454354494F4E20),
  (0x2A47, 0x494E54455253454354494F4E2041424F564520554E494F4E20),
  (0x2A48, 0x554E494F4E2041424F5645204241522041424F564520494E54455253454354494F4E20)]
def names_151 : List (Nat × Nat) := [
  (0x2A49, 0x494E54455253454354494F4E2041424F5645204241522041424F564520554E494F4E20),
  (0x2A4A, 0x554E494F4E2042455349444520414E44204A4F494E4544205749544820554E494F4E20),
  (0x2A4B, 0x494E54455253454354494F4E2042455349444520414E44204A4F494E4544205749544820494E54455253454354494F4E20),
  (0x2A4C, 0x434C4F53454420554E494F4E20574954482053455249465320),
  (0x2A4D, 0x434C4F53454420494E54455253454354494F4E20574954482053455249465320),
  (0x2A4E, 0x444F55424C452053515541524520494E54455253454354494F4E20),
  (0x2A4F, 0x444F55424C452053515541524520554E494F4E20),
  (0x2A50, 0x434C4F53454420554E494F4E20574954482053455249465320414E4420534D4153482050524F4455435420),
  (0x2A51, 0x4C4F474943414C20414E44205749544820444F542041424F564520),
  (0x2A52, 0x4C4F474943414C204F52205749544820444F542041424F564520),
  (0x2A53, 0x444F55424C45204C4F474943414C20414E4420),
  (0x2A54, 0x444F55424C45204C4F474943414C204F5220),
  (0x2A55, 0x54574F20494E54455253454354494E47204C4F474943414C20414E4420),
  (0x2A56, 0x54574F20494E54455253454354494E47204C4F474943414C204F5220),
  (0x2A57, 0x534C4F50494E47204C41524745204F5220),
  (0x2A58, 0x534C4F50494E47204C4152474520414E4420),
  (0x2A59, 0x4C4F474943414C204F52204F5645524C415050494E47204C4F474943414C20414E4420),
  (0x2A5A, 0x4C4F474943414C20414E442057495448204D4944444C45205354454D20),
  (0x2A5B, 0x4C4F474943414C204F522057495448204D4944444C45205354454D20),
  (0x2A5C, 0x4C4F474943414C20414E44205749544820484F52495A4F4E54414C204441534820),
  (0x2A5D, 0x4C4F474943414C204F52205749544820484F52495A4F4E54414C204441534820),
  (0x2A5E, 0x4C4F474943414C20414E44205749544820444F55424C45204F56455242415220),
  (0x2A5F, 0x4C4F474943414C20414E44205749544820554E44455242415220),
  (0x2A60, 0x4C4F474943414C20414E44205749544820444F55424C4520554E44455242415220),
  (0x2A61, 0x534D414C4C20564545205749544820554E44455242415220),
  (0x2A62, 0x4C4F474943414C204F52205749544820444F55424C45204F56455242415220),
  (0x2A63, 0x4C4F474943414C204F52205749544820444F55424C4520554E44455242415220),
  (0x2A64, 0x5A204E4F544154494F4E20444F4D41494E20414E54495245535452494354494F4E20),
  (0x2A65, 0x5A204E4F544154494F4E2052414E474520414E54495245535452494354494F4E20),
  (0x2A66, 0x455155414C53205349474E205749544820444F542042454C4F5720),
  (0x2A67, 0x4944454E544943414C205749544820444F542041424F564520),
  (0x2A68, 0x545249504C4520484F52495A4F4E54414C20424152205749544820444F55424C4520564552544943414C205354524F4B4520),
  (0x2A69, 0x545249504C4520484F52495A4F4E54414C20424152205749544820545249504C4520564552544943414C205354524F4B4520),
  (0x2A6A, 0x54494C4445204F50455241544F52205749544820444F542041424F564520),
  (0x2A6B, 0x54494C4445204F50455241544F52205749544820524953494E4720444F545320),
  (0x2A6C, 0x53494D494C4152204D494E55532053494D494C415220),
  (0x2A6D, 0x434F4E475255454E54205749544820444F542041424F564520),
  (0x2A6E, 0x455155414C53205749544820415354455249534B20),
  (0x2A6F, 0x414C4D4F535420455155414C20544F20574954482043495243554D464C455820414343454E5420),
  (0x2A70, 0x415050524F58494D4154454C5920455155414C204F5220455155414C20544F20),
  (0x2A71, 0x455155414C53205349474E2041424F564520504C5553205349474E20),
  (0x2A72, 0x504C5553205349474E2041424F564520455155414C53205349474E20),
  (0x2A73, 0x455155414C53205349474E2041424F56452054494C4445204F50455241544F5220),
  (0x2A74, 0x444F55424C4520434F4C4F4E20455155414C20),
  (0x2A75, 0x54574F20434F4E534543555449564520455155414C53205349474E5320),
  (0x2A76, 0x544852454520434F4E534543555449564520455155414C53205349474E5320),
  (0x2A77, 0x455155414C53205349474E20574954482054574F20444F54532041424F564520414E442054574F20444F54532042454C4F5720),
  (0x2A78, 0x4551554956414C454E54205749544820464F555220444F54532041424F564520),
  (0x2A79, 0x4C4553532D5448414E205749544820434952434C4520494E5349444520),
  (0x2A7A, 0x475245415445522D5448414E205749544820434952434C4520494E5349444520),
  (0x2A7B, 0x4C4553532D5448414E2057495448205155455354494F4E204D41524B2041424F564520),
  (0x2A7C, 0x475245415445522D5448414E2057495448205155455354494F4E204D41524B2041424F564520),
  (0x2A7D, 0x4C4553532D5448414E204F5220534C414E54454420455155414C20544F20),
  (0x2A7E, 0x475245415445522D5448414E204F5220534C414E54454420455155414C20544F20),
  (0x2A7F, 0x4C4553532D5448414E204F5220534C414E54454420455155414C20544F205749544820444F5420494E5349444520),
  (0x2A80, 0x475245415445522D5448414E204F5220534C414E54454420455155414C20544F205749544820444F5420494E5349444520),
  (0x2A81, 0x4C4553532D5448414E204F5220534C414E54454420455155414C20544F205749544820444F542041424F564520),
  (0x2A82, 0x475245415445522D5448414E204F5220534C414E54454420455155414C20544F205749544820444F542041424F564520),
  (0x2A83, 0x4C4553532D5448414E204F5220534C414E54454420455155414C20544F205749544820444F542041424F564520524947485420),
  (0x2A84, 0x475245415445522D5448414E204F5220534C414E54454420455155414C20544F205749544820444F542041424F5645204C45465420),
  (0x2A85, 0x4C4553532D5448414E204F5220415050524F58494D41544520),
  (0x2A86, 0x475245415445522D5448414E204F5220415050524F58494D41544520),
  (0x2A87, 0x4C4553532D5448414E20414E442053494E474C452D4C494E45204E4F5420455155414C20544F20),
  (0x2A88, 0x475245415445522D5448414E20414E442053494E474C452D4C494E45204E4F5420455155414C20544F20)]
def names_152 : List (Nat × Nat) := [
  (0x2A89, 0x4C4553532D5448414E20414E44204E4F5420415050524F58494D41544520),
  (0x2A8A, 0x475245415445522D5448414E20414E44204E4F5420415050524F58494D41544520),
  (0x2A8B, 0x4C4553532D5448414E2041424F564520444F55424C452D4C494E4520455155414C2041424F564520475245415445522D5448414E20),
  (0x2A8C, 0x475245415445522D5448414E2041424F564520444F55424C452D4C494E4520455155414C2041424F5645204C4553532D5448414E20),
  (0x2A8D, 0x4C4553532D5448414E2041424F56452053494D494C4152204F5220455155414C20),
  (0x2A8E, 0x475245415445522D5448414E2041424F56452053494D494C4152204F5220455155414C20),
  (0x2A8F, 0x4C4553532D5448414E2041424F56452053494D494C41522041424F564520475245415445522D5448414E20),
  (0x2A90, 0x475245415445522D5448414E2041424F56452053494D494C41522041424F5645204C4553532D5448414E20),
  (0x2A91, 0x4C4553532D5448414E2041424F564520475245415445522D5448414E2041424F564520444F55424C452D4C494E4520455155414C20),
  (0x2A92, 0x475245415445522D5448414E2041424F5645204C4553532D5448414E2041424F564520444F55424C452D4C494E4520455155414C20),
  (0x2A93, 0x4C4553532D5448414E2041424F564520534C414E54454420455155414C2041424F564520475245415445522D5448414E2041424F564520534C414E54454420455155414C20),
  (0x2A94, 0x475245415445522D5448414E2041424F564520534C414E54454420455155414C2041424F5645204C4553532D5448414E2041424F564520534C414E54454420455155414C20),
  (0x2A95, 0x534C414E54454420455155414C20544F204F52204C4553532D5448414E20),
  (0x2A96, 0x534C414E54454420455155414C20544F204F5220475245415445522D5448414E20),
  (0x2A97, 0x534C414E54454420455155414C20544F204F52204C4553532D5448414E205749544820444F5420494E5349444520),
  (0x2A98, 0x534C414E54454420455155414C20544F204F5220475245415445522D5448414E205749544820444F5420494E5349444520),
  (0x2A99, 0x444F55424C452D4C494E4520455155414C20544F204F52204C4553532D5448414E20),
  (0x2A9A, 0x444F55424C452D4C494E4520455155414C20544F204F5220475245415445522D5448414E20),
  (0x2A9B, 0x444F55424C452D4C494E4520534C414E54454420455155414C20544F204F52204C4553532D5448414E20),
  (0x2A9C, 0x444F55424C452D4C494E4520534C414E54454420455155414C20544F204F5220475245415445522D5448414E20),
  (0x2A9D, 0x53494D494C4152204F52204C4553532D5448414E20),
  (0x2A9E, 0x53494D494C4152204F5220475245415445522D5448414E20),
  (0x2A9F, 0x53494D494C41522041424F5645204C4553532D5448414E2041424F564520455155414C53205349474E20),
  (0x2AA0, 0x53494D494C41522041424F564520475245415445522D5448414E2041424F564520455155414C53205349474E20),
  (0x2AA1, 0x444F55424C45204E4553544544204C4553532D5448414E20),
  (0x2AA2, 0x444F55424C45204E455354454420475245415445522D5448414E20),
  (0x2AA3, 0x444F55424C45204E4553544544204C4553532D5448414E205749544820554E44455242415220),
  (0x2AA4, 0x475245415445522D5448414E204F5645524C415050494E47204C4553532D5448414E20),
  (0x2AA5, 0x475245415445522D5448414E20424553494445204C4553532D5448414E20),
  (0x2AA6, 0x4C4553532D5448414E20434C4F53454420425920435552564520),
  (0x2AA7, 0x475245415445522D5448414E20434C4F53454420425920435552564520),
  (0x2AA8, 0x4C4553532D5448414E20434C4F5345442042592043555256452041424F564520534C414E54454420455155414C20),
  (0x2AA9, 0x475245415445522D5448414E20434C4F5345442042592043555256452041424F564520534C414E54454420455155414C20),
  (0x2AAA, 0x534D414C4C4552205448414E20),
  (0x2AAB, 0x4C4152474552205448414E20),
  (0x2AAC, 0x534D414C4C4552205448414E204F5220455155414C20544F20),
  (0x2AAD, 0x4C4152474552205448414E204F5220455155414C20544F20),
  (0x2AAE, 0x455155414C53205349474E20574954482042554D50592041424F564520),
  (0x2AAF, 0x50524543454445532041424F56452053494E474C452D4C494E4520455155414C53205349474E20),
  (0x2AB0, 0x53554343454544532041424F56452053494E474C452D4C494E4520455155414C53205349474E20),
  (0x2AB1, 0x50524543454445532041424F56452053494E474C452D4C494E45204E4F5420455155414C20544F20),
  (0x2AB2, 0x53554343454544532041424F56452053494E474C452D4C494E45204E4F5420455155414C20544F20),
  (0x2AB3, 0x50524543454445532041424F564520455155414C53205349474E20),
  (0x2AB4, 0x53554343454544532041424F564520455155414C53205349474E20),
  (0x2AB5, 0x50524543454445532041424F5645204E4F5420455155414C20544F20),
  (0x2AB6, 0x53554343454544532041424F5645204E4F5420455155414C20544F20),
  (0x2AB7, 0x50524543454445532041424F564520414C4D4F535420455155414C20544F20),
  (0x2AB8, 0x53554343454544532041424F564520414C4D4F535420455155414C20544F20),
  (0x2AB9, 0x50524543454445532041424F5645204E4F5420414C4D4F535420455155414C20544F20),
  (0x2ABA, 0x53554343454544532041424F5645204E4F5420414C4D4F535420455155414C20544F20),
  (0x2ABB, 0x444F55424C4520505245434544455320),
  (0x2ABC, 0x444F55424C4520535543434545445320),
  (0x2ABD, 0x535542534554205749544820444F5420),
  (0x2ABE, 0x5355504552534554205749544820444F5420),
  (0x2ABF, 0x535542534554205749544820504C5553205349474E2042454C4F5720),
  (0x2AC0, 0x5355504552534554205749544820504C5553205349474E2042454C4F5720),
  (0x2AC1, 0x5355425345542057495448204D554C5449504C49434154494F4E205349474E2042454C4F5720),
  (0x2AC2, 0x53555045525345542057495448204D554C5449504C49434154494F4E205349474E2042454C4F5720),
  (0x2AC3, 0x535542534554204F46204F5220455155414C20544F205749544820444F542041424F564520),
  (0x2AC4, 0x5355504552534554204F46204F5220455155414C20544F205749544820444F542041424F564520),
  (0x2AC5, 0x535542534554204F462041424F564520455155414C53205349474E20),
  (0x2AC6, 0x5355504552534554204F462041424F564520455155414C53205349474E20),
  (0x2AC7, 0x535542534554204F462041424F56452054494C4445204F50455241544F5220),
  (0x2AC8, 0x5355504552534554204F462041424F56452054494C4445204F50455241544F5220)]
def names_153 : List (Nat × Nat) := [
  (0x2AC9, 0x535542534554204F462041424F564520414C4D4F535420455155414C20544F20),
  (0x2ACA, 0x5355504552534554204F462041424F564520414C4D4F535420455155414C20544F20),
  (0x2ACB, 0x535542534554204F462041424F5645204E4F5420455155414C20544F20),
  (0x2ACC, 0x5355504552534554204F462041424F5645204E4F5420455155414C20544F20),
  (0x2ACD, 0x535155415245204C454654204F50454E20424F58204F50455241544F5220),
  (0x2ACE, 0x535155415245205249474854204F50454E20424F58204F50455241544F5220),
  (0x2ACF, 0x434C4F5345442053554253455420),
  (0x2AD0, 0x434C4F53454420535550455253455420),
  (0x2AD1, 0x434C4F53454420535542534554204F5220455155414C20544F20),
  (0x2AD2, 0x434C4F534544205355504552534554204F5220455155414C20544F20),
  (0x2AD3, 0x5355425345542041424F564520535550455253455420),
  (0x2AD4, 0x53555045525345542041424F56452053554253455420),
  (0x2AD5, 0x5355425345542041424F56452053554253455420),
  (0x2AD6, 0x53555045525345542041424F564520535550455253455420),
  (0x2AD7, 0x5355504552534554204245534944452053554253455420),
  (0x2AD8, 0x53555045525345542042455349444520414E44204A4F494E4544204259204441534820574954482053554253455420),
  (0x2AD9, 0x454C454D454E54204F46204F50454E494E4720444F574E574152445320),
  (0x2ADA, 0x5049544348464F524B20574954482054454520544F5020),
  (0x2ADB, 0x5452414E5356455253414C20494E54455253454354494F4E20),
  (0x2ADC, 0x464F524B494E4720),
  (0x2ADD, 0x4E4F4E464F524B494E4720),
  (0x2ADE, 0x53484F5254204C454654205441434B20),
  (0x2ADF, 0x53484F525420444F574E205441434B20),
  (0x2AE0, 0x53484F5254205550205441434B20),
  (0x2AE1, 0x50455250454E444943554C41522057495448205320),
  (0x2AE2, 0x564552544943414C2042415220545249504C45205249474854205455524E5354494C4520),
  (0x2AE3, 0x444F55424C4520564552544943414C20424152204C454654205455524E5354494C4520),
  (0x2AE4, 0x564552544943414C2042415220444F55424C45204C454654205455524E5354494C4520),
  (0x2AE5, 0x444F55424C4520564552544943414C2042415220444F55424C45204C454654205455524E5354494C4520),
  (0x2AE6, 0x4C4F4E4720444153482046524F4D204C454654204D454D424552204F4620444F55424C4520564552544943414C20),
  (0x2AE7, 0x53484F525420444F574E205441434B2057495448204F56455242415220),
  (0x2AE8, 0x53484F5254205550205441434B205749544820554E44455242415220),
  (0x2AE9, 0x53484F5254205550205441434B2041424F56452053484F525420444F574E205441434B20),
  (0x2AEA, 0x444F55424C4520444F574E205441434B20),
  (0x2AEB, 0x444F55424C45205550205441434B20),
  (0x2AEC, 0x444F55424C45205354524F4B45204E4F54205349474E20),
  (0x2AED, 0x524556455253454420444F55424C45205354524F4B45204E4F54205349474E20),
  (0x2AEE, 0x444F4553204E4F54204449564944452057495448205245564552534544204E45474154494F4E20534C41534820),
  (0x2AEF, 0x564552544943414C204C494E45205749544820434952434C452041424F564520),
  (0x2AF0, 0x564552544943414C204C494E45205749544820434952434C452042454C4F5720),
  (0x2AF1, 0x444F574E205441434B205749544820434952434C452042454C4F5720),
  (0x2AF2, 0x504152414C4C454C205749544820484F52495A4F4E54414C205354524F4B4520),
  (0x2AF3, 0x504152414C4C454C20574954482054494C4445204F50455241544F5220),
  (0x2AF4, 0x545249504C4520564552544943414C204241522042494E4152592052454C4154494F4E20),
  (0x2AF5, 0x545249504C4520564552544943414C20424152205749544820484F52495A4F4E54414C205354524F4B4520),
  (0x2AF6, 0x545249504C4520434F4C4F4E204F50455241544F5220),
  (0x2AF7, 0x545249504C45204E4553544544204C4553532D5448414E20),
  (0x2AF8, 0x545249504C45204E455354454420475245415445522D5448414E20),
  (0x2AF9, 0x444F55424C452D4C494E4520534C414E544544204C4553532D5448414E204F5220455155414C20544F20),
  (0x2AFA, 0x444F55424C452D4C494E4520534C414E54454420475245415445522D5448414E204F5220455155414C20544F20),
  (0x2AFB, 0x545249504C4520534F4C494455532042494E4152592052454C4154494F4E20),
  (0x2AFC, 0x4C4152474520545249504C4520564552544943414C20424152204F50455241544F5220),
  (0x2AFD, 0x444F55424C4520534F4C49445553204F50455241544F5220),
  (0x2AFE, 0x574849544520564552544943414C2042415220),
  (0x2AFF, 0x4E2D41525920574849544520564552544943414C2042415220),
  (0x2B00, 0x4E4F5254482045415354205748495445204152524F5720),
  (0x2B01, 0x4E4F5254482057455354205748495445204152524F5720),
  (0x2B02, 0x534F5554482045415354205748495445204152524F5720),
  (0x2B03, 0x534F5554482057455354205748495445204152524F5720),
  (0x2B04, 0x4C454654205249474854205748495445204152524F5720),
  (0x2B05, 0x4C454654574152445320424C41434B204152524F5720),
  (0x2B06, 0x5550574152445320424C41434B204152524F5720),
  (0x2B07, 0x444F574E574152445320424C41434B204152524F5720),
  (0x2B08, 0x4E4F525448204541535420424C41434B204152524F5720)]
def names_154 : List (Nat × Nat) := [
  (0x2B09, 0x4E4F525448205745535420424C41434B204152524F5720),
  (0x2B0A, 0x534F555448204541535420424C41434B204152524F5720),
  (0x2B0B, 0x534F555448205745535420424C41434B204152524F5720),
  (0x2B0C, 0x4C45465420524947485420424C41434B204152524F5720),
  (0x2B0D, 0x555020444F574E20424C41434B204152524F5720),
  (0x2B0E, 0x52494748545741524453204152524F5720574954482054495020444F574E574152445320),
  (0x2B0F, 0x52494748545741524453204152524F57205749544820544950205550574152445320),
  (0x2B10, 0x4C4546545741524453204152524F5720574954482054495020444F574E574152445320),
  (0x2B11, 0x4C4546545741524453204152524F57205749544820544950205550574152445320),
  (0x2B12, 0x535155415245205749544820544F502048414C4620424C41434B20),
  (0x2B13, 0x535155415245205749544820424F54544F4D2048414C4620424C41434B20),
  (0x2B14, 0x535155415245205749544820555050455220524947485420444941474F4E414C2048414C4620424C41434B20),
  (0x2B15, 0x5351554152452057495448204C4F574552204C45465420444941474F4E414C2048414C4620424C41434B20),
  (0x2B16, 0x4449414D4F4E442057495448204C4546542048414C4620424C41434B20),
  (0x2B17, 0x4449414D4F4E4420574954482052494748542048414C4620424C41434B20),
  (0x2B18, 0x4449414D4F4E44205749544820544F502048414C4620424C41434B20),
  (0x2B19, 0x4449414D4F4E44205749544820424F54544F4D2048414C4620424C41434B20),
  (0x2B1A, 0x444F545445442053515541524520),
  (0x2B1B, 0x424C41434B204C415247452053515541524520),
  (0x2B1C, 0x5748495445204C415247452053515541524520),
  (0x2B1D, 0x424C41434B205645525920534D414C4C2053515541524520),
  (0x2B1E, 0x5748495445205645525920534D414C4C2053515541524520),
  (0x2B1F, 0x424C41434B2050454E5441474F4E20),
  (0x2B20, 0x57484954452050454E5441474F4E20),
  (0x2B21, 0x57484954452048455841474F4E20),
  (0x2B22, 0x424C41434B2048455841474F4E20),
  (0x2B23, 0x484F52495A4F4E54414C20424C41434B2048455841474F4E20),
  (0x2B24, 0x424C41434B204C4152474520434952434C4520),
  (0x2B25, 0x424C41434B204D454449554D204449414D4F4E4420),
  (0x2B26, 0x5748495445204D454449554D204449414D4F4E4420),
  (0x2B27, 0x424C41434B204D454449554D204C4F5A454E474520),
  (0x2B28, 0x5748495445204D454449554D204C4F5A454E474520),
  (0x2B29, 0x424C41434B20534D414C4C204449414D4F4E4420),
  (0x2B2A, 0x424C41434B20534D414C4C204C4F5A454E474520),
  (0x2B2B, 0x574849544520534D414C4C204C4F5A454E474520),
  (0x2B2C, 0x424C41434B20484F52495A4F4E54414C20454C4C4950534520),
  (0x2B2D, 0x574849544520484F52495A4F4E54414C20454C4C4950534520),
  (0x2B2E, 0x424C41434B20564552544943414C20454C4C4950534520),
  (0x2B2F, 0x574849544520564552544943414C20454C4C4950534520),
  (0x2B30, 0x4C454654204152524F57205749544820534D414C4C20434952434C4520),
  (0x2B31, 0x5448524545204C4546545741524453204152524F575320),
  (0x2B32, 0x4C454654204152524F57205749544820434952434C454420504C555320),
  (0x2B33, 0x4C4F4E47204C4546545741524453205351554947474C45204152524F5720),
  (0x2B34, 0x4C45465457415244532054574F2D484541444544204152524F57205749544820564552544943414C205354524F4B4520),
  (0x2B35, 0x4C45465457415244532054574F2D484541444544204152524F57205749544820444F55424C4520564552544943414C205354524F4B4520),
  (0x2B36, 0x4C45465457415244532054574F2D484541444544204152524F572046524F4D2042415220),
  (0x2B37, 0x4C45465457415244532054574F2D48454144454420545249504C452044415348204152524F5720),
  (0x2B38, 0x4C4546545741524453204152524F57205749544820444F54544544205354454D20),
  (0x2B39, 0x4C4546545741524453204152524F572057495448205441494C205749544820564552544943414C205354524F4B4520),
  (0x2B3A, 0x4C4546545741524453204152524F572057495448205441494C205749544820444F55424C4520564552544943414C205354524F4B4520),
  (0x2B3B, 0x4C45465457415244532054574F2D484541444544204152524F572057495448205441494C20),
  (0x2B3C, 0x4C45465457415244532054574F2D484541444544204152524F572057495448205441494C205749544820564552544943414C205354524F4B4520),
  (0x2B3D, 0x4C45465457415244532054574F2D484541444544204152524F572057495448205441494C205749544820444F55424C4520564552544943414C205354524F4B4520),
  (0x2B3E, 0x4C4546545741524453204152524F57205448524F554748205820),
  (0x2B3F, 0x57415645204152524F5720504F494E54494E47204449524543544C59204C45465420),
  (0x2B40, 0x455155414C53205349474E2041424F5645204C4546545741524453204152524F5720),
  (0x2B41, 0x524556455253452054494C4445204F50455241544F522041424F5645204C4546545741524453204152524F5720),
  (0x2B42, 0x4C4546545741524453204152524F572041424F5645205245564552534520414C4D4F535420455155414C20544F20),
  (0x2B43, 0x52494748545741524453204152524F57205448524F55474820475245415445522D5448414E20),
  (0x2B44, 0x52494748545741524453204152524F57205448524F55474820535550455253455420),
  (0x2B45, 0x4C454654574152445320515541445255504C45204152524F5720),
  (0x2B46, 0x5249474854574152445320515541445255504C45204152524F5720),
  (0x2B47, 0x524556455253452054494C4445204F50455241544F522041424F56452052494748545741524453204152524F5720),
  (0x2B48, 0x52494748545741524453204152524F572041424F5645205245564552534520414C4D4F535420455155414C20544F20)]
def names_155 : List (Nat × Nat) := [
  (0x2B49, 0x54494C4445204F50455241544F522041424F5645204C4546545741524453204152524F5720),
  (0x2B4A, 0x4C4546545741524453204152524F572041424F564520414C4D4F535420455155414C20544F20),
  (0x2B4B, 0x4C4546545741524453204152524F572041424F564520524556455253452054494C4445204F50455241544F5220),
  (0x2B4C, 0x52494748545741524453204152524F572041424F564520524556455253452054494C4445204F50455241544F5220),
  (0x2B4D, 0x444F574E574152445320545249414E474C452D484541444544205A49475A4147204152524F5720),
  (0x2B4E, 0x53484F525420534C414E544544204E4F525448204152524F5720),
  (0x2B4F, 0x53484F5254204241434B534C414E54454420534F555448204152524F5720),
  (0x2B50, 0x5748495445204D454449554D205354415220),
  (0x2B51, 0x424C41434B20534D414C4C205354415220),
  (0x2B52, 0x574849544520534D414C4C205354415220),
  (0x2B53, 0x424C41434B2052494748542D504F494E54494E472050454E5441474F4E20),
  (0x2B54, 0x57484954452052494748542D504F494E54494E472050454E5441474F4E20),
  (0x2B55, 0x4845415659204C4152474520434952434C4520),
  (0x2B56, 0x4845415659204F56414C2057495448204F56414C20494E5349444520),
  (0x2B57, 0x484541565920434952434C45205749544820434952434C4520494E5349444520),
  (0x2B58, 0x484541565920434952434C4520),
  (0x2B59, 0x484541565920434952434C45442053414C5449524520),
  (0x2B5A, 0x534C414E544544204E4F525448204152524F57205749544820484F4F4B4544204845414420),
  (0x2B5B, 0x4241434B534C414E54454420534F555448204152524F57205749544820484F4F4B4544205441494C20),
  (0x2B5C, 0x534C414E544544204E4F525448204152524F57205749544820484F52495A4F4E54414C205441494C20),
  (0x2B5D, 0x4241434B534C414E54454420534F555448204152524F57205749544820484F52495A4F4E54414C205441494C20),
  (0x2B5E, 0x42454E54204152524F5720504F494E54494E4720444F574E5741524453205448454E204E4F525448204541535420),
  (0x2B5F, 0x53484F52542042454E54204152524F5720504F494E54494E4720444F574E5741524453205448454E204E4F525448204541535420),
  (0x2B60, 0x4C454654574152445320545249414E474C452D484541444544204152524F5720),
  (0x2B61, 0x5550574152445320545249414E474C452D484541444544204152524F5720),
  (0x2B62, 0x5249474854574152445320545249414E474C452D484541444544204152524F5720),
  (0x2B63, 0x444F574E574152445320545249414E474C452D484541444544204152524F5720),
  (0x2B64, 0x4C45465420524947485420545249414E474C452D484541444544204152524F5720),
  (0x2B65, 0x555020444F574E20545249414E474C452D484541444544204152524F5720),
  (0x2B66, 0x4E4F525448205745535420545249414E474C452D484541444544204152524F5720),
  (0x2B67, 0x4E4F525448204541535420545249414E474C452D484541444544204152524F5720),
  (0x2B68, 0x534F555448204541535420545249414E474C452D484541444544204152524F5720),
  (0x2B69, 0x534F555448205745535420545249414E474C452D484541444544204152524F5720),
  (0x2B6A, 0x4C454654574152445320545249414E474C452D48454144454420444153484544204152524F5720),
  (0x2B6B, 0x5550574152445320545249414E474C452D48454144454420444153484544204152524F5720),
  (0x2B6C, 0x5249474854574152445320545249414E474C452D48454144454420444153484544204152524F5720),
  (0x2B6D, 0x444F574E574152445320545249414E474C452D48454144454420444153484544204152524F5720),
  (0x2B6E, 0x434C4F434B5749534520545249414E474C452D484541444544204F50454E20434952434C45204152524F5720),
  (0x2B6F, 0x414E5449434C4F434B5749534520545249414E474C452D484541444544204F50454E20434952434C45204152524F5720),
  (0x2B70, 0x4C454654574152445320545249414E474C452D484541444544204152524F5720544F2042415220),
  (0x2B71, 0x5550574152445320545249414E474C452D484541444544204152524F5720544F2042415220),
  (0x2B72, 0x5249474854574152445320545249414E474C452D484541444544204152524F5720544F2042415220),
  (0x2B73, 0x444F574E574152445320545249414E474C452D484541444544204152524F5720544F2042415220),
  (0x2B76, 0x4E4F525448205745535420545249414E474C452D484541444544204152524F5720544F2042415220),
  (0x2B77, 0x4E4F525448204541535420545249414E474C452D484541444544204152524F5720544F2042415220),
  (0x2B78, 0x534F555448204541535420545249414E474C452D484541444544204152524F5720544F2042415220),
  (0x2B79, 0x534F555448205745535420545249414E474C452D484541444544204152524F5720544F2042415220),
  (0x2B7A, 0x4C454654574152445320545249414E474C452D484541444544204152524F57205749544820444F55424C4520484F52495A4F4E54414C205354524F4B4520),
  (0x2B7B, 0x5550574152445320545249414E474C452D484541444544204152524F57205749544820444F55424C4520484F52495A4F4E54414C205354524F4B4520),
  (0x2B7C, 0x5249474854574152445320545249414E474C452D484541444544204152524F57205749544820444F55424C4520484F52495A4F4E54414C205354524F4B4520),
  (0x2B7D, 0x444F574E574152445320545249414E474C452D484541444544204152524F57205749544820444F55424C4520484F52495A4F4E54414C205354524F4B4520),
  (0x2B7E, 0x484F52495A4F4E54414C20544142204B455920),
  (0x2B7F, 0x564552544943414C20544142204B455920),
  (0x2B80, 0x4C454654574152445320545249414E474C452D484541444544204152524F57204F564552205249474854574152445320545249414E474C452D484541444544204152524F5720),
  (0x2B81, 0x5550574152445320545249414E474C452D484541444544204152524F57204C4546545741524453204F4620444F574E574152445320545249414E474C452D484541444544204152524F5720),
  (0x2B82, 0x5249474854574152445320545249414E474C452D484541444544204152524F57204F564552204C454654574152445320545249414E474C452D484541444544204152524F5720),
  (0x2B83, 0x444F574E574152445320545249414E474C452D484541444544204152524F57204C4546545741524453204F46205550574152445320545249414E474C452D484541444544204152524F5720),
  (0x2B84, 0x4C454654574152445320545249414E474C452D48454144454420504149524544204152524F575320),
  (0x2B85, 0x5550574152445320545249414E474C452D48454144454420504149524544204152524F575320),
  (0x2B86, 0x5249474854574152445320545249414E474C452D48454144454420504149524544204152524F575320),
  (0x2B87, 0x444F574E574152445320545249414E474C452D48454144454420504149524544204152524F575320),
  (0x2B88, 0x4C454654574152445320424C41434B20434952434C4544205748495445204152524F5720),
  (0x2B89, 0x5550574152445320424C41434B20434952434C4544205748495445204152524F5720),
  (0x2B8A, 0x5249474854574152445320424C41434B20434952434C4544205748495445204152524F5720)]
def names_156 : List (Nat × Nat) := [
  (0x2B8B, 0x444F574E574152445320424C41434B20434952434C4544205748495445204152524F5720),
  (0x2B8C, 0x414E5449434C4F434B5749534520545249414E474C452D48454144454420524947485420552D534841504544204152524F5720),
  (0x2B8D, 0x414E5449434C4F434B5749534520545249414E474C452D48454144454420424F54544F4D20552D534841504544204152524F5720),
  (0x2B8E, 0x414E5449434C4F434B5749534520545249414E474C452D484541444544204C45465420552D534841504544204152524F5720),
  (0x2B8F, 0x414E5449434C4F434B5749534520545249414E474C452D48454144454420544F5020552D534841504544204152524F5720),
  (0x2B90, 0x52455455524E204C45465420),
  (0x2B91, 0x52455455524E20524947485420),
  (0x2B92, 0x4E45574C494E45204C45465420),
  (0x2B93, 0x4E45574C494E4520524947485420),
  (0x2B94, 0x464F555220434F524E4552204152524F575320434952434C494E4720414E5449434C4F434B5749534520),
  (0x2B95, 0x5249474854574152445320424C41434B204152524F5720),
  (0x2B98, 0x54485245452D4420544F502D4C494748544544204C454654574152445320455155494C41544552414C204152524F574845414420),
  (0x2B99, 0x54485245452D442052494748542D4C494748544544205550574152445320455155494C41544552414C204152524F574845414420),
  (0x2B9A, 0x54485245452D4420544F502D4C494748544544205249474854574152445320455155494C41544552414C204152524F574845414420),
  (0x2B9B, 0x54485245452D44204C4546542D4C49474854454420444F574E574152445320455155494C41544552414C204152524F574845414420),
  (0x2B9C, 0x424C41434B204C454654574152445320455155494C41544552414C204152524F574845414420),
  (0x2B9D, 0x424C41434B205550574152445320455155494C41544552414C204152524F574845414420),
  (0x2B9E, 0x424C41434B205249474854574152445320455155494C41544552414C204152524F574845414420),
  (0x2B9F, 0x424C41434B20444F574E574152445320455155494C41544552414C204152524F574845414420),
  (0x2BA0, 0x444F574E574152445320545249414E474C452D484541444544204152524F572057495448204C4F4E4720544950204C454654574152445320),
  (0x2BA1, 0x444F574E574152445320545249414E474C452D484541444544204152524F572057495448204C4F4E4720544950205249474854574152445320),
  (0x2BA2, 0x5550574152445320545249414E474C452D484541444544204152524F572057495448204C4F4E4720544950204C454654574152445320),
  (0x2BA3, 0x5550574152445320545249414E474C452D484541444544204152524F572057495448204C4F4E4720544950205249474854574152445320),
  (0x2BA4, 0x4C454654574152445320545249414E474C452D484541444544204152524F572057495448204C4F4E4720544950205550574152445320),
  (0x2BA5, 0x5249474854574152445320545249414E474C452D484541444544204152524F572057495448204C4F4E4720544950205550574152445320),
  (0x2BA6, 0x4C454654574152445320545249414E474C452D484541444544204152524F572057495448204C4F4E472054495020444F574E574152445320),
  (0x2BA7, 0x5249474854574152445320545249414E474C452D484541444544204152524F572057495448204C4F4E472054495020444F574E574152445320),
  (0x2BA8, 0x424C41434B2043555256454420444F574E574152445320414E44204C4546545741524453204152524F5720),
  (0x2BA9, 0x424C41434B2043555256454420444F574E574152445320414E442052494748545741524453204152524F5720),
  (0x2BAA, 0x424C41434B20435552564544205550574152445320414E44204C4546545741524453204152524F5720),
  (0x2BAB, 0x424C41434B20435552564544205550574152445320414E442052494748545741524453204152524F5720),
  (0x2BAC, 0x424C41434B20435552564544204C454654574152445320414E442055505741524453204152524F5720),
  (0x2BAD, 0x424C41434B20435552564544205249474854574152445320414E442055505741524453204152524F5720),
  (0x2BAE, 0x424C41434B20435552564544204C454654574152445320414E4420444F574E5741524453204152524F5720),
  (0x2BAF, 0x424C41434B20435552564544205249474854574152445320414E4420444F574E5741524453204152524F5720),
  (0x2BB0, 0x524942424F4E204152524F5720444F574E204C45465420),
  (0x2BB1, 0x524942424F4E204152524F5720444F574E20524947485420),
  (0x2BB2, 0x524942424F4E204152524F57205550204C45465420),
  (0x2BB3, 0x524942424F4E204152524F5720555020524947485420),
  (0x2BB4, 0x524942424F4E204152524F57204C45465420555020),
  (0x2BB5, 0x524942424F4E204152524F5720524947485420555020),
  (0x2BB6, 0x524942424F4E204152524F57204C45465420444F574E20),
  (0x2BB7, 0x524942424F4E204152524F5720524947485420444F574E20),
  (0x2BB8, 0x55505741524453205748495445204152524F572046524F4D20424152205749544820484F52495A4F4E54414C2042415220),
  (0x2BB9, 0x5550204152524F574845414420494E20412052454354414E474C4520424F5820),
  (0x2BBD, 0x42414C4C4F5420424F582057495448204C49474854205820),
  (0x2BBE, 0x434952434C4544205820),
  (0x2BBF, 0x434952434C454420424F4C44205820),
  (0x2BC0, 0x424C41434B205351554152452043454E5452454420),
  (0x2BC1, 0x424C41434B204449414D4F4E442043454E5452454420),
  (0x2BC2, 0x5455524E454420424C41434B2050454E5441474F4E20),
  (0x2BC3, 0x484F52495A4F4E54414C20424C41434B204F435441474F4E20),
  (0x2BC4, 0x424C41434B204F435441474F4E20),
  (0x2BC5, 0x424C41434B204D454449554D2055502D504F494E54494E4720545249414E474C452043454E5452454420),
  (0x2BC6, 0x424C41434B204D454449554D20444F574E2D504F494E54494E4720545249414E474C452043454E5452454420),
  (0x2BC7, 0x424C41434B204D454449554D204C4546542D504F494E54494E4720545249414E474C452043454E5452454420),
  (0x2BC8, 0x424C41434B204D454449554D2052494748542D504F494E54494E4720545249414E474C452043454E5452454420),
  (0x2BCA, 0x544F502048414C4620424C41434B20434952434C4520),
  (0x2BCB, 0x424F54544F4D2048414C4620424C41434B20434952434C4520),
  (0x2BCC, 0x4C4947485420464F555220504F494E54454420424C41434B204355535020),
  (0x2BCD, 0x524F5441544544204C4947485420464F555220504F494E54454420424C41434B204355535020),
  (0x2BCE, 0x574849544520464F555220504F494E544544204355535020),
  (0x2BCF, 0x524F544154454420574849544520464F555220504F494E544544204355535020),
  (0x2BD0, 0x53515541524520504F534954494F4E20494E44494341544F5220)]
def names_157 : List (Nat × Nat) := [
  (0x2BD1, 0x554E4345525441494E5459205349474E20),
  (0x2BD2, 0x47524F5550204D41524B20),
  (0x2BEC, 0x4C45465457415244532054574F2D484541444544204152524F57205749544820545249414E474C45204152524F57484541445320),
  (0x2BED, 0x555057415244532054574F2D484541444544204152524F57205749544820545249414E474C45204152524F57484541445320),
  (0x2BEE, 0x524947485457415244532054574F2D484541444544204152524F57205749544820545249414E474C45204152524F57484541445320),
  (0x2BEF, 0x444F574E57415244532054574F2D484541444544204152524F57205749544820545249414E474C45204152524F57484541445320),
  (0x2C00, 0x474C41474F4C49544943204341504954414C204C455454455220415A5520),
  (0x2C01, 0x474C41474F4C49544943204341504954414C204C45545445522042554B5920),
  (0x2C02, 0x474C41474F4C49544943204341504954414C204C4554544552205645444520),
  (0x2C03, 0x474C41474F4C49544943204341504954414C204C455454455220474C41474F4C4920),
  (0x2C04, 0x474C41474F4C49544943204341504954414C204C455454455220444F42524F20),
  (0x2C05, 0x474C41474F4C49544943204341504954414C204C455454455220594553545520),
  (0x2C06, 0x474C41474F4C49544943204341504954414C204C4554544552205A48495645544520),
  (0x2C07, 0x474C41474F4C49544943204341504954414C204C455454455220445A454C4F20),
  (0x2C08, 0x474C41474F4C49544943204341504954414C204C4554544552205A454D4C4A4120),
  (0x2C09, 0x474C41474F4C49544943204341504954414C204C455454455220495A484520),
  (0x2C0A, 0x474C41474F4C49544943204341504954414C204C455454455220494E495449414C20495A484520),
  (0x2C0B, 0x474C41474F4C49544943204341504954414C204C4554544552204920),
  (0x2C0C, 0x474C41474F4C49544943204341504954414C204C455454455220444A4552564920),
  (0x2C0D, 0x474C41474F4C49544943204341504954414C204C4554544552204B414B4F20),
  (0x2C0E, 0x474C41474F4C49544943204341504954414C204C4554544552204C4A5544494A4520),
  (0x2C0F, 0x474C41474F4C49544943204341504954414C204C4554544552204D59534C49544520),
  (0x2C10, 0x474C41474F4C49544943204341504954414C204C4554544552204E4153484920),
  (0x2C11, 0x474C41474F4C49544943204341504954414C204C4554544552204F4E5520),
  (0x2C12, 0x474C41474F4C49544943204341504954414C204C455454455220504F4B4F4A4920),
  (0x2C13, 0x474C41474F4C49544943204341504954414C204C455454455220524954534920),
  (0x2C14, 0x474C41474F4C49544943204341504954414C204C455454455220534C4F564F20),
  (0x2C15, 0x474C41474F4C49544943204341504954414C204C45545445522054565249444F20),
  (0x2C16, 0x474C41474F4C49544943204341504954414C204C455454455220554B5520),
  (0x2C17, 0x474C41474F4C49544943204341504954414C204C455454455220465249545520),
  (0x2C18, 0x474C41474F4C49544943204341504954414C204C4554544552204845525520),
  (0x2C19, 0x474C41474F4C49544943204341504954414C204C4554544552204F545520),
  (0x2C1A, 0x474C41474F4C49544943204341504954414C204C455454455220504520),
  (0x2C1B, 0x474C41474F4C49544943204341504954414C204C4554544552205348544120),
  (0x2C1C, 0x474C41474F4C49544943204341504954414C204C45545445522054534920),
  (0x2C1D, 0x474C41474F4C49544943204341504954414C204C45545445522043485249564920),
  (0x2C1E, 0x474C41474F4C49544943204341504954414C204C45545445522053484120),
  (0x2C1F, 0x474C41474F4C49544943204341504954414C204C4554544552205945525520),
  (0x2C20, 0x474C41474F4C49544943204341504954414C204C4554544552205945524920),
  (0x2C21, 0x474C41474F4C49544943204341504954414C204C4554544552205941544920),
  (0x2C22, 0x474C41474F4C49544943204341504954414C204C4554544552205350494445525920484120),
  (0x2C23, 0x474C41474F4C49544943204341504954414C204C455454455220595520),
  (0x2C24, 0x474C41474F4C49544943204341504954414C204C455454455220534D414C4C2059555320),
  (0x2C25, 0x474C41474F4C49544943204341504954414C204C455454455220534D414C4C205955532057495448205441494C20),
  (0x2C26, 0x474C41474F4C49544943204341504954414C204C455454455220594F20),
  (0x2C27, 0x474C41474F4C49544943204341504954414C204C455454455220494F544154454420534D414C4C2059555320),
  (0x2C28, 0x474C41474F4C49544943204341504954414C204C4554544552204249472059555320),
  (0x2C29, 0x474C41474F4C49544943204341504954414C204C455454455220494F5441544544204249472059555320),
  (0x2C2A, 0x474C41474F4C49544943204341504954414C204C4554544552204649544120),
  (0x2C2B, 0x474C41474F4C49544943204341504954414C204C455454455220495A484954534120),
  (0x2C2C, 0x474C41474F4C49544943204341504954414C204C4554544552205348544150494320),
  (0x2C2D, 0x474C41474F4C49544943204341504954414C204C45545445522054524F4B555441535449204120),
  (0x2C2E, 0x474C41474F4C49544943204341504954414C204C4554544552204C4154494E415445204D59534C49544520),
  (0x2C30, 0x474C41474F4C4954494320534D414C4C204C455454455220415A5520),
  (0x2C31, 0x474C41474F4C4954494320534D414C4C204C45545445522042554B5920),
  (0x2C32, 0x474C41474F4C4954494320534D414C4C204C4554544552205645444520),
  (0x2C33, 0x474C41474F4C4954494320534D414C4C204C455454455220474C41474F4C4920),
  (0x2C34, 0x474C41474F4C4954494320534D414C4C204C455454455220444F42524F20),
  (0x2C35, 0x474C41474F4C4954494320534D414C4C204C455454455220594553545520),
  (0x2C36, 0x474C41474F4C4954494320534D414C4C204C4554544552205A48495645544520),
  (0x2C37, 0x474C41474F4C4954494320534D414C4C204C455454455220445A454C4F20),
  (0x2C38, 0x474C41474F4C4954494320534D414C4C204C4554544552205A454D4C4A4120),
  (0x2C39, 0x474C41474F4C4954494320534D414C4C204C455454455220495A484520),
  (0x2C3A, 0x474C41474F4C4954494320534D414C4C204C455454455220494E495449414C20495A484520)]
def names_158 : List (Nat × Nat) := [
  (0x2C3B, 0x474C41474F4C4954494320534D414C4C204C4554544552204920),
  (0x2C3C, 0x474C41474F4C4954494320534D414C4C204C455454455220444A4552564920),
  (0x2C3D, 0x474C41474F4C4954494320534D414C4C204C4554544552204B414B4F20),
  (0x2C3E, 0x474C41474F4C4954494320534D414C4C204C4554544552204C4A5544494A4520),
  (0x2C3F, 0x474C41474F4C4954494320534D414C4C204C4554544552204D59534C49544520),
  (0x2C40, 0x474C41474F4C4954494320534D414C4C204C4554544552204E4153484920),
  (0x2C41, 0x474C41474F4C4954494320534D414C4C204C4554544552204F4E5520),
  (0x2C42, 0x474C41474F4C4954494320534D414C4C204C455454455220504F4B4F4A4920),
  (0x2C43, 0x474C41474F4C4954494320534D414C4C204C455454455220524954534920),
  (0x2C44, 0x474C41474F4C4954494320534D414C4C204C455454455220534C4F564F20),
  (0x2C45, 0x474C41474F4C4954494320534D414C4C204C45545445522054565249444F20),
  (0x2C46, 0x474C41474F4C4954494320534D414C4C204C455454455220554B5520),
  (0x2C47, 0x474C41474F4C4954494320534D414C4C204C455454455220465249545520),
  (0x2C48, 0x474C41474F4C4954494320534D414C4C204C4554544552204845525520),
  (0x2C49, 0x474C41474F4C4954494320534D414C4C204C4554544552204F545520),
  (0x2C4A, 0x474C41474F4C4954494320534D414C4C204C455454455220504520),
  (0x2C4B, 0x474C41474F4C4954494320534D414C4C204C4554544552205348544120),
  (0x2C4C, 0x474C41474F4C4954494320534D414C4C204C45545445522054534920),
  (0x2C4D, 0x474C41474F4C4954494320534D414C4C204C45545445522043485249564920),
  (0x2C4E, 0x474C41474F4C4954494320534D414C4C204C45545445522053484120),
  (0x2C4F, 0x474C41474F4C4954494320534D414C4C204C4554544552205945525520),
  (0x2C50, 0x474C41474F4C4954494320534D414C4C204C4554544552205945524920),
  (0x2C51, 0x474C41474F4C4954494320534D414C4C204C4554544552205941544920),
  (0x2C52, 0x474C41474F4C4954494320534D414C4C204C4554544552205350494445525920484120),
  (0x2C53, 0x474C41474F4C4954494320534D414C4C204C455454455220595520),
  (0x2C54, 0x474C41474F4C4954494320534D414C4C204C455454455220534D414C4C2059555320),
  (0x2C55, 0x474C41474F4C4954494320534D414C4C204C455454455220534D414C4C205955532057495448205441494C20),
  (0x2C56, 0x474C41474F4C4954494320534D414C4C204C455454455220594F20),
  (0x2C57, 0x474C41474F4C4954494320534D414C4C204C455454455220494F544154454420534D414C4C2059555320),
  (0x2C58, 0x474C41474F4C4954494320534D414C4C204C4554544552204249472059555320),
  (0x2C59, 0x474C41474F4C4954494320534D414C4C204C455454455220494F5441544544204249472059555320),
  (0x2C5A, 0x474C41474F4C4954494320534D414C4C204C4554544552204649544120),
  (0x2C5B, 0x474C41474F4C4954494320534D414C4C204C455454455220495A484954534120),
  (0x2C5C, 0x474C41474F4C4954494320534D414C4C204C4554544552205348544150494320),
  (0x2C5D, 0x474C41474F4C4954494320534D414C4C204C45545445522054524F4B555441535449204120),
  (0x2C5E, 0x474C41474F4C4954494320534D414C4C204C4554544552204C4154494E415445204D59534C49544520),
  (0x2C60, 0x4C4154494E204341504954414C204C4554544552204C205749544820444F55424C452042415220),
  (0x2C61, 0x4C4154494E20534D414C4C204C4554544552204C205749544820444F55424C452042415220),
  (0x2C62, 0x4C4154494E204341504954414C204C4554544552204C2057495448204D4944444C452054494C444520),
  (0x2C63, 0x4C4154494E204341504954414C204C455454455220502057495448205354524F4B4520),
  (0x2C64, 0x4C4154494E204341504954414C204C455454455220522057495448205441494C20),
  (0x2C65, 0x4C4154494E20534D414C4C204C455454455220412057495448205354524F4B4520),
  (0x2C66, 0x4C4154494E20534D414C4C204C45545445522054205749544820444941474F4E414C205354524F4B4520),
  (0x2C67, 0x4C4154494E204341504954414C204C4554544552204820574954482044455343454E44455220),
  (0x2C68, 0x4C4154494E20534D414C4C204C4554544552204820574954482044455343454E44455220),
  (0x2C69, 0x4C4154494E204341504954414C204C4554544552204B20574954482044455343454E44455220),
  (0x2C6A, 0x4C4154494E20534D414C4C204C4554544552204B20574954482044455343454E44455220),
  (0x2C6B, 0x4C4154494E204341504954414C204C4554544552205A20574954482044455343454E44455220),
  (0x2C6C, 0x4C4154494E20534D414C4C204C4554544552205A20574954482044455343454E44455220),
  (0x2C6D, 0x4C4154494E204341504954414C204C455454455220414C50484120),
  (0x2C6E, 0x4C4154494E204341504954414C204C4554544552204D205749544820484F4F4B20),
  (0x2C6F, 0x4C4154494E204341504954414C204C4554544552205455524E4544204120),
  (0x2C70, 0x4C4154494E204341504954414C204C4554544552205455524E454420414C50484120),
  (0x2C71, 0x4C4154494E20534D414C4C204C45545445522056205749544820524947485420484F4F4B20),
  (0x2C72, 0x4C4154494E204341504954414C204C45545445522057205749544820484F4F4B20),
  (0x2C73, 0x4C4154494E20534D414C4C204C45545445522057205749544820484F4F4B20),
  (0x2C74, 0x4C4154494E20534D414C4C204C455454455220562057495448204355524C20),
  (0x2C75, 0x4C4154494E204341504954414C204C45545445522048414C46204820),
  (0x2C76, 0x4C4154494E20534D414C4C204C45545445522048414C46204820),
  (0x2C77, 0x4C4154494E20534D414C4C204C4554544552205441494C4C4553532050484920),
  (0x2C78, 0x4C4154494E20534D414C4C204C455454455220452057495448204E4F54434820),
  (0x2C79, 0x4C4154494E20534D414C4C204C4554544552205455524E454420522057495448205441494C20),
  (0x2C7A, 0x4C4154494E20534D414C4C204C4554544552204F2057495448204C4F572052494E4720494E5349444520),
  (0x2C7B, 0x4C4154494E204C455454455220534D414C4C204341504954414C205455524E4544204520)]
def names_159 : List (Nat × Nat) := [
  (0x2C7C, 0x4C4154494E2053554253435249505420534D414C4C204C4554544552204A20),
  (0x2C7D, 0x4D4F444946494552204C4554544552204341504954414C205620),
  (0x2C7E, 0x4C4154494E204341504954414C204C455454455220532057495448205357415348205441494C20),
  (0x2C7F, 0x4C4154494E204341504954414C204C4554544552205A2057495448205357415348205441494C20),
  (0x2C80, 0x434F50544943204341504954414C204C455454455220414C464120),
  (0x2C81, 0x434F5054494320534D414C4C204C455454455220414C464120),
  (0x2C82, 0x434F50544943204341504954414C204C4554544552205649444120),
  (0x2C83, 0x434F5054494320534D414C4C204C4554544552205649444120),
  (0x2C84, 0x434F50544943204341504954414C204C45545445522047414D4D4120),
  (0x2C85, 0x434F5054494320534D414C4C204C45545445522047414D4D4120),
  (0x2C86, 0x434F50544943204341504954414C204C45545445522044414C444120),
  (0x2C87, 0x434F5054494320534D414C4C204C45545445522044414C444120),
  (0x2C88, 0x434F50544943204341504954414C204C45545445522045494520),
  (0x2C89, 0x434F5054494320534D414C4C204C45545445522045494520),
  (0x2C8A, 0x434F50544943204341504954414C204C455454455220534F5520),
  (0x2C8B, 0x434F5054494320534D414C4C204C455454455220534F5520),
  (0x2C8C, 0x434F50544943204341504954414C204C4554544552205A41544120),
  (0x2C8D, 0x434F5054494320534D414C4C204C4554544552205A41544120),
  (0x2C8E, 0x434F50544943204341504954414C204C4554544552204841544520),
  (0x2C8F, 0x434F5054494320534D414C4C204C4554544552204841544520),
  (0x2C90, 0x434F50544943204341504954414C204C45545445522054484554484520),
  (0x2C91, 0x434F5054494320534D414C4C204C45545445522054484554484520),
  (0x2C92, 0x434F50544943204341504954414C204C455454455220494155444120),
  (0x2C93, 0x434F5054494320534D414C4C204C455454455220494155444120),
  (0x2C94, 0x434F50544943204341504954414C204C4554544552204B41504120),
  (0x2C95, 0x434F5054494320534D414C4C204C4554544552204B41504120),
  (0x2C96, 0x434F50544943204341504954414C204C4554544552204C41554C4120),
  (0x2C97, 0x434F5054494320534D414C4C204C4554544552204C41554C4120),
  (0x2C98, 0x434F50544943204341504954414C204C4554544552204D4920),
  (0x2C99, 0x434F5054494320534D414C4C204C4554544552204D4920),
  (0x2C9A, 0x434F50544943204341504954414C204C4554544552204E4920),
  (0x2C9B, 0x434F5054494320534D414C4C204C4554544552204E4920),
  (0x2C9C, 0x434F50544943204341504954414C204C4554544552204B534920),
  (0x2C9D, 0x434F5054494320534D414C4C204C4554544552204B534920),
  (0x2C9E, 0x434F50544943204341504954414C204C4554544552204F20),
  (0x2C9F, 0x434F5054494320534D414C4C204C4554544552204F20),
  (0x2CA0, 0x434F50544943204341504954414C204C455454455220504920),
  (0x2CA1, 0x434F5054494320534D414C4C204C455454455220504920),
  (0x2CA2, 0x434F50544943204341504954414C204C455454455220524F20),
  (0x2CA3, 0x434F5054494320534D414C4C204C455454455220524F20),
  (0x2CA4, 0x434F50544943204341504954414C204C45545445522053494D4120),
  (0x2CA5, 0x434F5054494320534D414C4C204C45545445522053494D4120),
  (0x2CA6, 0x434F50544943204341504954414C204C45545445522054415520),
  (0x2CA7, 0x434F5054494320534D414C4C204C45545445522054415520),
  (0x2CA8, 0x434F50544943204341504954414C204C455454455220554120),
  (0x2CA9, 0x434F5054494320534D414C4C204C455454455220554120),
  (0x2CAA, 0x434F50544943204341504954414C204C455454455220464920),
  (0x2CAB, 0x434F5054494320534D414C4C204C455454455220464920),
  (0x2CAC, 0x434F50544943204341504954414C204C4554544552204B484920),
  (0x2CAD, 0x434F5054494320534D414C4C204C4554544552204B484920),
  (0x2CAE, 0x434F50544943204341504954414C204C45545445522050534920),
  (0x2CAF, 0x434F5054494320534D414C4C204C45545445522050534920),
  (0x2CB0, 0x434F50544943204341504954414C204C4554544552204F4F5520),
  (0x2CB1, 0x434F5054494320534D414C4C204C4554544552204F4F5520),
  (0x2CB2, 0x434F50544943204341504954414C204C4554544552204449414C4543542D5020414C454620),
  (0x2CB3, 0x434F5054494320534D414C4C204C4554544552204449414C4543542D5020414C454620),
  (0x2CB4, 0x434F50544943204341504954414C204C4554544552204F4C4420434F505449432041494E20),
  (0x2CB5, 0x434F5054494320534D414C4C204C4554544552204F4C4420434F505449432041494E20),
  (0x2CB6, 0x434F50544943204341504954414C204C45545445522043525950544F4752414D4D49432045494520),
  (0x2CB7, 0x434F5054494320534D414C4C204C45545445522043525950544F4752414D4D49432045494520),
  (0x2CB8, 0x434F50544943204341504954414C204C4554544552204449414C4543542D50204B41504120),
  (0x2CB9, 0x434F5054494320534D414C4C204C4554544552204449414C4543542D50204B41504120),
  (0x2CBA, 0x434F50544943204341504954414C204C4554544552204449414C4543542D50204E4920),
  (0x2CBB, 0x434F5054494320534D414C4C204C4554544552204449414C4543542D50204E4920)]
def names_160 : List (Nat × Nat) := [
  (0x2CBC, 0x434F50544943204341504954414C204C45545445522043525950544F4752414D4D4943204E4920),
  (0x2CBD, 0x434F5054494320534D414C4C204C45545445522043525950544F4752414D4D4943204E4920),
  (0x2CBE, 0x434F50544943204341504954414C204C4554544552204F4C4420434F50544943204F4F5520),
  (0x2CBF, 0x434F5054494320534D414C4C204C4554544552204F4C4420434F50544943204F4F5520),
  (0x2CC0, 0x434F50544943204341504954414C204C45545445522053414D504920),
  (0x2CC1, 0x434F5054494320534D414C4C204C45545445522053414D504920),
  (0x2CC2, 0x434F50544943204341504954414C204C45545445522043524F53534544205348454920),
  (0x2CC3, 0x434F5054494320534D414C4C204C45545445522043524F53534544205348454920),
  (0x2CC4, 0x434F50544943204341504954414C204C4554544552204F4C4420434F50544943205348454920),
  (0x2CC5, 0x434F5054494320534D414C4C204C4554544552204F4C4420434F50544943205348454920),
  (0x2CC6, 0x434F50544943204341504954414C204C4554544552204F4C4420434F505449432045534820),
  (0x2CC7, 0x434F5054494320534D414C4C204C4554544552204F4C4420434F505449432045534820),
  (0x2CC8, 0x434F50544943204341504954414C204C455454455220414B484D494D4943204B48454920),
  (0x2CC9, 0x434F5054494320534D414C4C204C455454455220414B484D494D4943204B48454920),
  (0x2CCA, 0x434F50544943204341504954414C204C4554544552204449414C4543542D5020484F524920),
  (0x2CCB, 0x434F5054494320534D414C4C204C4554544552204449414C4543542D5020484F524920),
  (0x2CCC, 0x434F50544943204341504954414C204C4554544552204F4C4420434F5054494320484F524920),
  (0x2CCD, 0x434F5054494320534D414C4C204C4554544552204F4C4420434F5054494320484F524920),
  (0x2CCE, 0x434F50544943204341504954414C204C4554544552204F4C4420434F5054494320484120),
  (0x2CCF, 0x434F5054494320534D414C4C204C4554544552204F4C4420434F5054494320484120),
  (0x2CD0, 0x434F50544943204341504954414C204C4554544552204C2D53484150454420484120),
  (0x2CD1, 0x434F5054494320534D414C4C204C4554544552204C2D53484150454420484120),
  (0x2CD2, 0x434F50544943204341504954414C204C4554544552204F4C4420434F505449432048454920),
  (0x2CD3, 0x434F5054494320534D414C4C204C4554544552204F4C4420434F505449432048454920),
  (0x2CD4, 0x434F50544943204341504954414C204C4554544552204F4C4420434F505449432048415420),
  (0x2CD5, 0x434F5054494320534D414C4C204C4554544552204F4C4420434F505449432048415420),
  (0x2CD6, 0x434F50544943204341504954414C204C4554544552204F4C4420434F505449432047414E47494120),
  (0x2CD7, 0x434F5054494320534D414C4C204C4554544552204F4C4420434F505449432047414E47494120),
  (0x2CD8, 0x434F50544943204341504954414C204C4554544552204F4C4420434F5054494320444A4120),
  (0x2CD9, 0x434F5054494320534D414C4C204C4554544552204F4C4420434F5054494320444A4120),
  (0x2CDA, 0x434F50544943204341504954414C204C4554544552204F4C4420434F50544943205348494D4120),
  (0x2CDB, 0x434F5054494320534D414C4C204C4554544552204F4C4420434F50544943205348494D4120),
  (0x2CDC, 0x434F50544943204341504954414C204C4554544552204F4C44204E554249414E205348494D4120),
  (0x2CDD, 0x434F5054494320534D414C4C204C4554544552204F4C44204E554249414E205348494D4120),
  (0x2CDE, 0x434F50544943204341504954414C204C4554544552204F4C44204E554249414E204E474920),
  (0x2CDF, 0x434F5054494320534D414C4C204C4554544552204F4C44204E554249414E204E474920),
  (0x2CE0, 0x434F50544943204341504954414C204C4554544552204F4C44204E554249414E204E594920),
  (0x2CE1, 0x434F5054494320534D414C4C204C4554544552204F4C44204E554249414E204E594920),
  (0x2CE2, 0x434F50544943204341504954414C204C4554544552204F4C44204E554249414E2057415520),
  (0x2CE3, 0x434F5054494320534D414C4C204C4554544552204F4C44204E554249414E2057415520),
  (0x2CE4, 0x434F505449432053594D424F4C204B414920),
  (0x2CE5, 0x434F505449432053594D424F4C204D4920524F20),
  (0x2CE6, 0x434F505449432053594D424F4C20504920524F20),
  (0x2CE7, 0x434F505449432053594D424F4C2053544155524F5320),
  (0x2CE8, 0x434F505449432053594D424F4C2054415520524F20),
  (0x2CE9, 0x434F505449432053594D424F4C204B484920524F20),
  (0x2CEA, 0x434F505449432053594D424F4C205348494D412053494D4120),
  (0x2CEB, 0x434F50544943204341504954414C204C45545445522043525950544F4752414D4D4943205348454920),
  (0x2CEC, 0x434F5054494320534D414C4C204C45545445522043525950544F4752414D4D4943205348454920),
  (0x2CED, 0x434F50544943204341504954414C204C45545445522043525950544F4752414D4D49432047414E47494120),
  (0x2CEE, 0x434F5054494320534D414C4C204C45545445522043525950544F4752414D4D49432047414E47494120),
  (0x2CEF, 0x434F5054494320434F4D42494E494E47204E492041424F564520),
  (0x2CF0, 0x434F5054494320434F4D42494E494E4720535049524954555320415350455220),
  (0x2CF1, 0x434F5054494320434F4D42494E494E47205350495249545553204C454E495320),
  (0x2CF2, 0x434F50544943204341504954414C204C455454455220424F484149524943204B48454920),
  (0x2CF3, 0x434F5054494320534D414C4C204C455454455220424F484149524943204B48454920),
  (0x2CF9, 0x434F50544943204F4C44204E554249414E2046554C4C2053544F5020),
  (0x2CFA, 0x434F50544943204F4C44204E554249414E20444952454354205155455354494F4E204D41524B20),
  (0x2CFB, 0x434F50544943204F4C44204E554249414E20494E444952454354205155455354494F4E204D41524B20),
  (0x2CFC, 0x434F50544943204F4C44204E554249414E205645525345204449564944455220),
  (0x2CFD, 0x434F50544943204652414354494F4E204F4E452048414C4620),
  (0x2CFE, 0x434F505449432046554C4C2053544F5020),
  (0x2CFF, 0x434F50544943204D4F5250484F4C4F474943414C204449564944455220),
  (0x2D00, 0x47454F524749414E20534D414C4C204C455454455220414E20)]
def names_161 : List (Nat × Nat) := [
  (0x2D01, 0x47454F524749414E20534D414C4C204C45545445522042414E20),
  (0x2D02, 0x47454F524749414E20534D414C4C204C45545445522047414E20),
  (0x2D03, 0x47454F524749414E20534D414C4C204C455454455220444F4E20),
  (0x2D04, 0x47454F524749414E20534D414C4C204C455454455220454E20),
  (0x2D05, 0x47454F524749414E20534D414C4C204C45545445522056494E20),
  (0x2D06, 0x47454F524749414E20534D414C4C204C4554544552205A454E20),
  (0x2D07, 0x47454F524749414E20534D414C4C204C45545445522054414E20),
  (0x2D08, 0x47454F524749414E20534D414C4C204C455454455220494E20),
  (0x2D09, 0x47454F524749414E20534D414C4C204C4554544552204B414E20),
  (0x2D0A, 0x47454F524749414E20534D414C4C204C4554544552204C415320),
  (0x2D0B, 0x47454F524749414E20534D414C4C204C4554544552204D414E20),
  (0x2D0C, 0x47454F524749414E20534D414C4C204C4554544552204E415220),
  (0x2D0D, 0x47454F524749414E20534D414C4C204C4554544552204F4E20),
  (0x2D0E, 0x47454F524749414E20534D414C4C204C45545445522050415220),
  (0x2D0F, 0x47454F524749414E20534D414C4C204C4554544552205A48415220),
  (0x2D10, 0x47454F524749414E20534D414C4C204C45545445522052414520),
  (0x2D11, 0x47454F524749414E20534D414C4C204C45545445522053414E20),
  (0x2D12, 0x47454F524749414E20534D414C4C204C45545445522054415220),
  (0x2D13, 0x47454F524749414E20534D414C4C204C455454455220554E20),
  (0x2D14, 0x47454F524749414E20534D414C4C204C4554544552205048415220),
  (0x2D15, 0x47454F524749414E20534D414C4C204C4554544552204B48415220),
  (0x2D16, 0x47454F524749414E20534D414C4C204C4554544552204748414E20),
  (0x2D17, 0x47454F524749414E20534D414C4C204C45545445522051415220),
  (0x2D18, 0x47454F524749414E20534D414C4C204C4554544552205348494E20),
  (0x2D19, 0x47454F524749414E20534D414C4C204C4554544552204348494E20),
  (0x2D1A, 0x47454F524749414E20534D414C4C204C45545445522043414E20),
  (0x2D1B, 0x47454F524749414E20534D414C4C204C4554544552204A494C20),
  (0x2D1C, 0x47454F524749414E20534D414C4C204C45545445522043494C20),
  (0x2D1D, 0x47454F524749414E20534D414C4C204C4554544552204348415220),
  (0x2D1E, 0x47454F524749414E20534D414C4C204C45545445522058414E20),
  (0x2D1F, 0x47454F524749414E20534D414C4C204C4554544552204A48414E20),
  (0x2D20, 0x47454F524749414E20534D414C4C204C45545445522048414520),
  (0x2D21, 0x47454F524749414E20534D414C4C204C455454455220484520),
  (0x2D22, 0x47454F524749414E20534D414C4C204C45545445522048494520),
  (0x2D23, 0x47454F524749414E20534D414C4C204C455454455220574520),
  (0x2D24, 0x47454F524749414E20534D414C4C204C45545445522048415220),
  (0x2D25, 0x47454F524749414E20534D414C4C204C455454455220484F4520),
  (0x2D27, 0x47454F524749414E20534D414C4C204C455454455220594E20),
  (0x2D2D, 0x47454F524749414E20534D414C4C204C45545445522041454E20),
  (0x2D30, 0x544946494E414748204C455454455220594120),
  (0x2D31, 0x544946494E414748204C45545445522059414220),
  (0x2D32, 0x544946494E414748204C4554544552205941424820),
  (0x2D33, 0x544946494E414748204C45545445522059414720),
  (0x2D34, 0x544946494E414748204C455454455220594147484820),
  (0x2D35, 0x544946494E414748204C4554544552204245524245522041434144454D592059414A20),
  (0x2D36, 0x544946494E414748204C45545445522059414A20),
  (0x2D37, 0x544946494E414748204C45545445522059414420),
  (0x2D38, 0x544946494E414748204C4554544552205941444820),
  (0x2D39, 0x544946494E414748204C4554544552205941444420),
  (0x2D3A, 0x544946494E414748204C455454455220594144444820),
  (0x2D3B, 0x544946494E414748204C45545445522059455920),
  (0x2D3C, 0x544946494E414748204C45545445522059414620),
  (0x2D3D, 0x544946494E414748204C45545445522059414B20),
  (0x2D3E, 0x544946494E414748204C4554544552205455415245472059414B20),
  (0x2D3F, 0x544946494E414748204C45545445522059414B484820),
  (0x2D40, 0x544946494E414748204C45545445522059414820),
  (0x2D41, 0x544946494E414748204C4554544552204245524245522041434144454D592059414820),
  (0x2D42, 0x544946494E414748204C4554544552205455415245472059414820),
  (0x2D43, 0x544946494E414748204C4554544552205941484820),
  (0x2D44, 0x544946494E414748204C45545445522059414120),
  (0x2D45, 0x544946494E414748204C45545445522059414B4820),
  (0x2D46, 0x544946494E414748204C4554544552205455415245472059414B4820),
  (0x2D47, 0x544946494E414748204C45545445522059415120),
  (0x2D48, 0x544946494E414748204C4554544552205455415245472059415120)]
def names_162 : List (Nat × Nat) := [
  (0x2D49, 0x544946494E414748204C455454455220594920),
  (0x2D4A, 0x544946494E414748204C45545445522059415A4820),
  (0x2D4B, 0x544946494E414748204C455454455220414841474741522059415A4820),
  (0x2D4C, 0x544946494E414748204C4554544552205455415245472059415A4820),
  (0x2D4D, 0x544946494E414748204C45545445522059414C20),
  (0x2D4E, 0x544946494E414748204C45545445522059414D20),
  (0x2D4F, 0x544946494E414748204C45545445522059414E20),
  (0x2D50, 0x544946494E414748204C455454455220545541524547205941474E20),
  (0x2D51, 0x544946494E414748204C4554544552205455415245472059414E4720),
  (0x2D52, 0x544946494E414748204C45545445522059415020),
  (0x2D53, 0x544946494E414748204C455454455220595520),
  (0x2D54, 0x544946494E414748204C45545445522059415220),
  (0x2D55, 0x544946494E414748204C4554544552205941525220),
  (0x2D56, 0x544946494E414748204C4554544552205941474820),
  (0x2D57, 0x544946494E414748204C455454455220545541524547205941474820),
  (0x2D58, 0x544946494E414748204C45545445522041594552205941474820),
  (0x2D59, 0x544946494E414748204C45545445522059415320),
  (0x2D5A, 0x544946494E414748204C4554544552205941535320),
  (0x2D5B, 0x544946494E414748204C4554544552205941534820),
  (0x2D5C, 0x544946494E414748204C45545445522059415420),
  (0x2D5D, 0x544946494E414748204C4554544552205941544820),
  (0x2D5E, 0x544946494E414748204C4554544552205941434820),
  (0x2D5F, 0x544946494E414748204C4554544552205941545420),
  (0x2D60, 0x544946494E414748204C45545445522059415620),
  (0x2D61, 0x544946494E414748204C45545445522059415720),
  (0x2D62, 0x544946494E414748204C45545445522059415920),
  (0x2D63, 0x544946494E414748204C45545445522059415A20),
  (0x2D64, 0x544946494E414748204C455454455220544157454C4C454D45542059415A20),
  (0x2D65, 0x544946494E414748204C45545445522059415A5A20),
  (0x2D66, 0x544946494E414748204C455454455220594520),
  (0x2D67, 0x544946494E414748204C455454455220594F20),
  (0x2D6F, 0x544946494E414748204D4F444946494552204C4554544552204C414249414C495A4154494F4E204D41524B20),
  (0x2D70, 0x544946494E41474820534550415241544F52204D41524B20),
  (0x2D7F, 0x544946494E41474820434F4E534F4E414E54204A4F494E455220),
  (0x2D80, 0x455448494F5049432053594C4C41424C45204C4F4120),
  (0x2D81, 0x455448494F5049432053594C4C41424C45204D4F4120),
  (0x2D82, 0x455448494F5049432053594C4C41424C4520524F4120),
  (0x2D83, 0x455448494F5049432053594C4C41424C4520534F4120),
  (0x2D84, 0x455448494F5049432053594C4C41424C452053484F4120),
  (0x2D85, 0x455448494F5049432053594C4C41424C4520424F4120),
  (0x2D86, 0x455448494F5049432053594C4C41424C4520544F4120),
  (0x2D87, 0x455448494F5049432053594C4C41424C4520434F4120),
  (0x2D88, 0x455448494F5049432053594C4C41424C45204E4F4120),
  (0x2D89, 0x455448494F5049432053594C4C41424C45204E594F4120),
  (0x2D8A, 0x455448494F5049432053594C4C41424C4520474C4F5454414C204F4120),
  (0x2D8B, 0x455448494F5049432053594C4C41424C45205A4F4120),
  (0x2D8C, 0x455448494F5049432053594C4C41424C4520444F4120),
  (0x2D8D, 0x455448494F5049432053594C4C41424C452044444F4120),
  (0x2D8E, 0x455448494F5049432053594C4C41424C45204A4F4120),
  (0x2D8F, 0x455448494F5049432053594C4C41424C452054484F4120),
  (0x2D90, 0x455448494F5049432053594C4C41424C452043484F4120),
  (0x2D91, 0x455448494F5049432053594C4C41424C452050484F4120),
  (0x2D92, 0x455448494F5049432053594C4C41424C4520504F4120),
  (0x2D93, 0x455448494F5049432053594C4C41424C45204747574120),
  (0x2D94, 0x455448494F5049432053594C4C41424C45204747574920),
  (0x2D95, 0x455448494F5049432053594C4C41424C4520474757454520),
  (0x2D96, 0x455448494F5049432053594C4C41424C45204747574520),
  (0x2DA0, 0x455448494F5049432053594C4C41424C452053534120),
  (0x2DA1, 0x455448494F5049432053594C4C41424C452053535520),
  (0x2DA2, 0x455448494F5049432053594C4C41424C452053534920),
  (0x2DA3, 0x455448494F5049432053594C4C41424C45205353414120),
  (0x2DA4, 0x455448494F5049432053594C4C41424C45205353454520),
  (0x2DA5, 0x455448494F5049432053594C4C41424C452053534520),
  (0x2DA6, 0x455448494F5049432053594C4C41424C452053534F20)]
def names_163 : List (Nat × Nat) := [
  (0x2DA8, 0x455448494F5049432053594C4C41424C452043434120),
  (0x2DA9, 0x455448494F5049432053594C4C41424C452043435520),
  (0x2DAA, 0x455448494F5049432053594C4C41424C452043434920),
  (0x2DAB, 0x455448494F5049432053594C4C41424C45204343414120),
  (0x2DAC, 0x455448494F5049432053594C4C41424C45204343454520),
  (0x2DAD, 0x455448494F5049432053594C4C41424C452043434520),
  (0x2DAE, 0x455448494F5049432053594C4C41424C452043434F20),
  (0x2DB0, 0x455448494F5049432053594C4C41424C45205A5A4120),
  (0x2DB1, 0x455448494F5049432053594C4C41424C45205A5A5520),
  (0x2DB2, 0x455448494F5049432053594C4C41424C45205A5A4920),
  (0x2DB3, 0x455448494F5049432053594C4C41424C45205A5A414120),
  (0x2DB4, 0x455448494F5049432053594C4C41424C45205A5A454520),
  (0x2DB5, 0x455448494F5049432053594C4C41424C45205A5A4520),
  (0x2DB6, 0x455448494F5049432053594C4C41424C45205A5A4F20),
  (0x2DB8, 0x455448494F5049432053594C4C41424C45204343484120),
  (0x2DB9, 0x455448494F5049432053594C4C41424C45204343485520),
  (0x2DBA, 0x455448494F5049432053594C4C41424C45204343484920),
  (0x2DBB, 0x455448494F5049432053594C4C41424C4520434348414120),
  (0x2DBC, 0x455448494F5049432053594C4C41424C4520434348454520),
  (0x2DBD, 0x455448494F5049432053594C4C41424C45204343484520),
  (0x2DBE, 0x455448494F5049432053594C4C41424C45204343484F20),
  (0x2DC0, 0x455448494F5049432053594C4C41424C452051594120),
  (0x2DC1, 0x455448494F5049432053594C4C41424C452051595520),
  (0x2DC2, 0x455448494F5049432053594C4C41424C452051594920),
  (0x2DC3, 0x455448494F5049432053594C4C41424C45205159414120),
  (0x2DC4, 0x455448494F5049432053594C4C41424C45205159454520),
  (0x2DC5, 0x455448494F5049432053594C4C41424C452051594520),
  (0x2DC6, 0x455448494F5049432053594C4C41424C452051594F20),
  (0x2DC8, 0x455448494F5049432053594C4C41424C45204B594120),
  (0x2DC9, 0x455448494F5049432053594C4C41424C45204B595520),
  (0x2DCA, 0x455448494F5049432053594C4C41424C45204B594920),
  (0x2DCB, 0x455448494F5049432053594C4C41424C45204B59414120),
  (0x2DCC, 0x455448494F5049432053594C4C41424C45204B59454520),
  (0x2DCD, 0x455448494F5049432053594C4C41424C45204B594520),
  (0x2DCE, 0x455448494F5049432053594C4C41424C45204B594F20),
  (0x2DD0, 0x455448494F5049432053594C4C41424C452058594120),
  (0x2DD1, 0x455448494F5049432053594C4C41424C452058595520),
  (0x2DD2, 0x455448494F5049432053594C4C41424C452058594920),
  (0x2DD3, 0x455448494F5049432053594C4C41424C45205859414120),
  (0x2DD4, 0x455448494F5049432053594C4C41424C45205859454520),
  (0x2DD5, 0x455448494F5049432053594C4C41424C452058594520),
  (0x2DD6, 0x455448494F5049432053594C4C41424C452058594F20),
  (0x2DD8, 0x455448494F5049432053594C4C41424C452047594120),
  (0x2DD9, 0x455448494F5049432053594C4C41424C452047595520),
  (0x2DDA, 0x455448494F5049432053594C4C41424C452047594920),
  (0x2DDB, 0x455448494F5049432053594C4C41424C45204759414120),
  (0x2DDC, 0x455448494F5049432053594C4C41424C45204759454520),
  (0x2DDD, 0x455448494F5049432053594C4C41424C452047594520),
  (0x2DDE, 0x455448494F5049432053594C4C41424C452047594F20),
  (0x2DE0, 0x434F4D42494E494E4720435952494C4C4943204C455454455220424520),
  (0x2DE1, 0x434F4D42494E494E4720435952494C4C4943204C455454455220564520),
  (0x2DE2, 0x434F4D42494E494E4720435952494C4C4943204C45545445522047484520),
  (0x2DE3, 0x434F4D42494E494E4720435952494C4C4943204C455454455220444520),
  (0x2DE4, 0x434F4D42494E494E4720435952494C4C4943204C4554544552205A484520),
  (0x2DE5, 0x434F4D42494E494E4720435952494C4C4943204C4554544552205A4520),
  (0x2DE6, 0x434F4D42494E494E4720435952494C4C4943204C4554544552204B4120),
  (0x2DE7, 0x434F4D42494E494E4720435952494C4C4943204C455454455220454C20),
  (0x2DE8, 0x434F4D42494E494E4720435952494C4C4943204C455454455220454D20),
  (0x2DE9, 0x434F4D42494E494E4720435952494C4C4943204C455454455220454E20),
  (0x2DEA, 0x434F4D42494E494E4720435952494C4C4943204C4554544552204F20),
  (0x2DEB, 0x434F4D42494E494E4720435952494C4C4943204C455454455220504520),
  (0x2DEC, 0x434F4D42494E494E4720435952494C4C4943204C455454455220455220),
  (0x2DED, 0x434F4D42494E494E4720435952494C4C4943204C455454455220455320),
  (0x2DEE, 0x434F4D42494E494E4720435952494C4C4943204C455454455220544520)]
def names_164 : List (Nat × Nat) := [
  (0x2DEF, 0x434F4D42494E494E4720435952494C4C4943204C455454455220484120),
  (0x2DF0, 0x434F4D42494E494E4720435952494C4C4943204C45545445522054534520),
  (0x2DF1, 0x434F4D42494E494E4720435952494C4C4943204C45545445522043484520),
  (0x2DF2, 0x434F4D42494E494E4720435952494C4C4943204C45545445522053484120),
  (0x2DF3, 0x434F4D42494E494E4720435952494C4C4943204C455454455220534843484120),
  (0x2DF4, 0x434F4D42494E494E4720435952494C4C4943204C4554544552204649544120),
  (0x2DF5, 0x434F4D42494E494E4720435952494C4C4943204C45545445522045532D544520),
  (0x2DF6, 0x434F4D42494E494E4720435952494C4C4943204C4554544552204120),
  (0x2DF7, 0x434F4D42494E494E4720435952494C4C4943204C455454455220494520),
  (0x2DF8, 0x434F4D42494E494E4720435952494C4C4943204C455454455220444A45525620),
  (0x2DF9, 0x434F4D42494E494E4720435952494C4C4943204C4554544552204D4F4E4F475241504820554B20),
  (0x2DFA, 0x434F4D42494E494E4720435952494C4C4943204C45545445522059415420),
  (0x2DFB, 0x434F4D42494E494E4720435952494C4C4943204C455454455220595520),
  (0x2DFC, 0x434F4D42494E494E4720435952494C4C4943204C455454455220494F544946494544204120),
  (0x2DFD, 0x434F4D42494E494E4720435952494C4C4943204C4554544552204C4954544C452059555320),
  (0x2DFE, 0x434F4D42494E494E4720435952494C4C4943204C4554544552204249472059555320),
  (0x2DFF, 0x434F4D42494E494E4720435952494C4C4943204C455454455220494F544946494544204249472059555320),
  (0x2E00, 0x524947485420414E474C4520535542535449545554494F4E204D41524B455220),
  (0x2E01, 0x524947485420414E474C4520444F5454454420535542535449545554494F4E204D41524B455220),
  (0x2E02, 0x4C45465420535542535449545554494F4E20425241434B455420),
  (0x2E03, 0x524947485420535542535449545554494F4E20425241434B455420),
  (0x2E04, 0x4C45465420444F5454454420535542535449545554494F4E20425241434B455420),
  (0x2E05, 0x524947485420444F5454454420535542535449545554494F4E20425241434B455420),
  (0x2E06, 0x52414953454420494E544552504F4C4154494F4E204D41524B455220),
  (0x2E07, 0x52414953454420444F5454454420494E544552504F4C4154494F4E204D41524B455220),
  (0x2E08, 0x444F54544544205452414E53504F534954494F4E204D41524B455220),
  (0x2E09, 0x4C454654205452414E53504F534954494F4E20425241434B455420),
  (0x2E0A, 0x5249474854205452414E53504F534954494F4E20425241434B455420),
  (0x2E0B, 0x5241495345442053515541524520),
  (0x2E0C, 0x4C45465420524149534544204F4D495353494F4E20425241434B455420),
  (0x2E0D, 0x524947485420524149534544204F4D495353494F4E20425241434B455420),
  (0x2E0E, 0x454449544F5249414C20434F524F4E495320),
  (0x2E0F, 0x5041524147524150484F5320),
  (0x2E10, 0x464F524B4544205041524147524150484F5320),
  (0x2E11, 0x524556455253454420464F524B4544205041524147524150484F5320),
  (0x2E12, 0x4859504F44494153544F4C4520),
  (0x2E13, 0x444F54544544204F42454C4F5320),
  (0x2E14, 0x444F574E574152445320414E434F524120),
  (0x2E15, 0x5550574152445320414E434F524120),
  (0x2E16, 0x444F545445442052494748542D504F494E54494E4720414E474C4520),
  (0x2E17, 0x444F55424C45204F424C495155452048595048454E20),
  (0x2E18, 0x494E56455254454420494E544552524F42414E4720),
  (0x2E19, 0x50414C4D204252414E434820),
  (0x2E1A, 0x48595048454E20574954482044494145524553495320),
  (0x2E1B, 0x54494C444520574954482052494E472041424F564520),
  (0x2E1C, 0x4C454654204C4F57205041524150485241534520425241434B455420),
  (0x2E1D, 0x5249474854204C4F57205041524150485241534520425241434B455420),
  (0x2E1E, 0x54494C4445205749544820444F542041424F564520),
  (0x2E1F, 0x54494C4445205749544820444F542042454C4F5720),
  (0x2E20, 0x4C45465420564552544943414C204241522057495448205155494C4C20),
  (0x2E21, 0x524947485420564552544943414C204241522057495448205155494C4C20),
  (0x2E22, 0x544F50204C4546542048414C4620425241434B455420),
  (0x2E23, 0x544F502052494748542048414C4620425241434B455420),
  (0x2E24, 0x424F54544F4D204C4546542048414C4620425241434B455420),
  (0x2E25, 0x424F54544F4D2052494748542048414C4620425241434B455420),
  (0x2E26, 0x4C454654205349444557415953205520425241434B455420),
  (0x2E27, 0x5249474854205349444557415953205520425241434B455420),
  (0x2E28, 0x4C45465420444F55424C4520504152454E54484553495320),
  (0x2E29, 0x524947485420444F55424C4520504152454E54484553495320),
  (0x2E2A, 0x54574F20444F5453204F564552204F4E4520444F542050554E4354554154494F4E20),
  (0x2E2B, 0x4F4E4520444F54204F5645522054574F20444F54532050554E4354554154494F4E20),
  (0x2E2C, 0x5351554152454420464F555220444F542050554E4354554154494F4E20),
  (0x2E2D, 0x4649564520444F54204D41524B20),
  (0x2E2E, 0x5245564552534544205155455354494F4E204D41524B20)]
def names_165 : List (Nat × Nat) := [
  (0x2E2F, 0x564552544943414C2054494C444520),
  (0x2E30, 0x52494E4720504F494E5420),
  (0x2E31, 0x574F524420534550415241544F52204D4944444C4520444F5420),
  (0x2E32, 0x5455524E454420434F4D4D4120),
  (0x2E33, 0x52414953454420444F5420),
  (0x2E34, 0x52414953454420434F4D4D4120),
  (0x2E35, 0x5455524E45442053454D49434F4C4F4E20),
  (0x2E36, 0x4441474745522057495448204C45465420475541524420),
  (0x2E37, 0x444147474552205749544820524947485420475541524420),
  (0x2E38, 0x5455524E45442044414747455220),
  (0x2E39, 0x544F502048414C462053454354494F4E205349474E20),
  (0x2E3A, 0x54574F2D454D204441534820),
  (0x2E3B, 0x54485245452D454D204441534820),
  (0x2E3C, 0x5354454E4F475241504849432046554C4C2053544F5020),
  (0x2E3D, 0x564552544943414C2053495820444F545320),
  (0x2E3E, 0x574947474C5920564552544943414C204C494E4520),
  (0x2E3F, 0x4341504954554C554D20),
  (0x2E40, 0x444F55424C452048595048454E20),
  (0x2E41, 0x524556455253454420434F4D4D4120),
  (0x2E42, 0x444F55424C45204C4F572D52455645525345442D392051554F544154494F4E204D41524B20),
  (0x2E43, 0x444153482057495448204C4546542055505455524E20),
  (0x2E44, 0x444F55424C452053555350454E53494F4E204D41524B20),
  (0x2E45, 0x494E564552544544204C4F57204B4156594B4120),
  (0x2E46, 0x494E564552544544204C4F57204B4156594B412057495448204B4156594B412041424F564520),
  (0x2E47, 0x4C4F57204B4156594B4120),
  (0x2E48, 0x4C4F57204B4156594B41205749544820444F5420),
  (0x2E49, 0x444F55424C4520535441434B454420434F4D4D4120),
  (0x2E80, 0x434A4B205241444943414C2052455045415420),
  (0x2E81, 0x434A4B205241444943414C20434C49464620),
  (0x2E82, 0x434A4B205241444943414C205345434F4E44204F4E4520),
  (0x2E83, 0x434A4B205241444943414C205345434F4E442054574F20),
  (0x2E84, 0x434A4B205241444943414C205345434F4E4420544852454520),
  (0x2E85, 0x434A4B205241444943414C20504552534F4E20),
  (0x2E86, 0x434A4B205241444943414C20424F5820),
  (0x2E87, 0x434A4B205241444943414C205441424C4520),
  (0x2E88, 0x434A4B205241444943414C204B4E494645204F4E4520),
  (0x2E89, 0x434A4B205241444943414C204B4E4946452054574F20),
  (0x2E8A, 0x434A4B205241444943414C20444956494E4154494F4E20),
  (0x2E8B, 0x434A4B205241444943414C205345414C20),
  (0x2E8C, 0x434A4B205241444943414C20534D414C4C204F4E4520),
  (0x2E8D, 0x434A4B205241444943414C20534D414C4C2054574F20),
  (0x2E8E, 0x434A4B205241444943414C204C414D45204F4E4520),
  (0x2E8F, 0x434A4B205241444943414C204C414D452054574F20),
  (0x2E90, 0x434A4B205241444943414C204C414D4520544852454520),
  (0x2E91, 0x434A4B205241444943414C204C414D4520464F555220),
  (0x2E92, 0x434A4B205241444943414C20534E414B4520),
  (0x2E93, 0x434A4B205241444943414C2054485245414420),
  (0x2E94, 0x434A4B205241444943414C20534E4F5554204F4E4520),
  (0x2E95, 0x434A4B205241444943414C20534E4F55542054574F20),
  (0x2E96, 0x434A4B205241444943414C204845415254204F4E4520),
  (0x2E97, 0x434A4B205241444943414C2048454152542054574F20),
  (0x2E98, 0x434A4B205241444943414C2048414E4420),
  (0x2E99, 0x434A4B205241444943414C2052415020),
  (0x2E9B, 0x434A4B205241444943414C2043484F4B4520),
  (0x2E9C, 0x434A4B205241444943414C2053554E20),
  (0x2E9D, 0x434A4B205241444943414C204D4F4F4E20),
  (0x2E9E, 0x434A4B205241444943414C20444541544820),
  (0x2E9F, 0x434A4B205241444943414C204D4F5448455220),
  (0x2EA0, 0x434A4B205241444943414C20434956494C49414E20),
  (0x2EA1, 0x434A4B205241444943414C205741544552204F4E4520),
  (0x2EA2, 0x434A4B205241444943414C2057415445522054574F20),
  (0x2EA3, 0x434A4B205241444943414C204649524520),
  (0x2EA4, 0x434A4B205241444943414C20504157204F4E4520),
  (0x2EA5, 0x434A4B205241444943414C205041572054574F20)]
def names_166 : List (Nat × Nat) := [
  (0x2EA6, 0x434A4B205241444943414C2053494D504C49464945442048414C462054524545205452554E4B20),
  (0x2EA7, 0x434A4B205241444943414C20434F5720),
  (0x2EA8, 0x434A4B205241444943414C20444F4720),
  (0x2EA9, 0x434A4B205241444943414C204A41444520),
  (0x2EAA, 0x434A4B205241444943414C20424F4C54204F4620434C4F544820),
  (0x2EAB, 0x434A4B205241444943414C2045594520),
  (0x2EAC, 0x434A4B205241444943414C20535049524954204F4E4520),
  (0x2EAD, 0x434A4B205241444943414C205350495249542054574F20),
  (0x2EAE, 0x434A4B205241444943414C2042414D424F4F20),
  (0x2EAF, 0x434A4B205241444943414C2053494C4B20),
  (0x2EB0, 0x434A4B205241444943414C20432D53494D504C49464945442053494C4B20),
  (0x2EB1, 0x434A4B205241444943414C204E4554204F4E4520),
  (0x2EB2, 0x434A4B205241444943414C204E45542054574F20),
  (0x2EB3, 0x434A4B205241444943414C204E455420544852454520),
  (0x2EB4, 0x434A4B205241444943414C204E455420464F555220),
  (0x2EB5, 0x434A4B205241444943414C204D45534820),
  (0x2EB6, 0x434A4B205241444943414C20534845455020),
  (0x2EB7, 0x434A4B205241444943414C2052414D20),
  (0x2EB8, 0x434A4B205241444943414C2045574520),
  (0x2EB9, 0x434A4B205241444943414C204F4C4420),
  (0x2EBA, 0x434A4B205241444943414C204252555348204F4E4520),
  (0x2EBB, 0x434A4B205241444943414C2042525553482054574F20),
  (0x2EBC, 0x434A4B205241444943414C204D45415420),
  (0x2EBD, 0x434A4B205241444943414C204D4F5254415220),
  (0x2EBE, 0x434A4B205241444943414C204752415353204F4E4520),
  (0x2EBF, 0x434A4B205241444943414C2047524153532054574F20),
  (0x2EC0, 0x434A4B205241444943414C20475241535320544852454520),
  (0x2EC1, 0x434A4B205241444943414C20544947455220),
  (0x2EC2, 0x434A4B205241444943414C20434C4F5448455320),
  (0x2EC3, 0x434A4B205241444943414C2057455354204F4E4520),
  (0x2EC4, 0x434A4B205241444943414C20574553542054574F20),
  (0x2EC5, 0x434A4B205241444943414C20432D53494D504C49464945442053454520),
  (0x2EC6, 0x434A4B205241444943414C2053494D504C494649454420484F524E20),
  (0x2EC7, 0x434A4B205241444943414C20484F524E20),
  (0x2EC8, 0x434A4B205241444943414C20432D53494D504C49464945442053504545434820),
  (0x2EC9, 0x434A4B205241444943414C20432D53494D504C4946494544205348454C4C20),
  (0x2ECA, 0x434A4B205241444943414C20464F4F5420),
  (0x2ECB, 0x434A4B205241444943414C20432D53494D504C4946494544204341525420),
  (0x2ECC, 0x434A4B205241444943414C2053494D504C49464945442057414C4B20),
  (0x2ECD, 0x434A4B205241444943414C2057414C4B204F4E4520),
  (0x2ECE, 0x434A4B205241444943414C2057414C4B2054574F20),
  (0x2ECF, 0x434A4B205241444943414C204349545920),
  (0x2ED0, 0x434A4B205241444943414C20432D53494D504C494649454420474F4C4420),
  (0x2ED1, 0x434A4B205241444943414C204C4F4E47204F4E4520),
  (0x2ED2, 0x434A4B205241444943414C204C4F4E472054574F20),
  (0x2ED3, 0x434A4B205241444943414C20432D53494D504C4946494544204C4F4E4720),
  (0x2ED4, 0x434A4B205241444943414C20432D53494D504C4946494544204741544520),
  (0x2ED5, 0x434A4B205241444943414C204D4F554E44204F4E4520),
  (0x2ED6, 0x434A4B205241444943414C204D4F554E442054574F20),
  (0x2ED7, 0x434A4B205241444943414C205241494E20),
  (0x2ED8, 0x434A4B205241444943414C20424C554520),
  (0x2ED9, 0x434A4B205241444943414C20432D53494D504C49464945442054414E4E4544204C45415448455220),
  (0x2EDA, 0x434A4B205241444943414C20432D53494D504C4946494544204C45414620),
  (0x2EDB, 0x434A4B205241444943414C20432D53494D504C49464945442057494E4420),
  (0x2EDC, 0x434A4B205241444943414C20432D53494D504C494649454420464C5920),
  (0x2EDD, 0x434A4B205241444943414C20454154204F4E4520),
  (0x2EDE, 0x434A4B205241444943414C204541542054574F20),
  (0x2EDF, 0x434A4B205241444943414C2045415420544852454520),
  (0x2EE0, 0x434A4B205241444943414C20432D53494D504C49464945442045415420),
  (0x2EE1, 0x434A4B205241444943414C204845414420),
  (0x2EE2, 0x434A4B205241444943414C20432D53494D504C494649454420484F52534520),
  (0x2EE3, 0x434A4B205241444943414C20424F4E4520),
  (0x2EE4, 0x434A4B205241444943414C2047484F535420),
  (0x2EE5, 0x434A4B205241444943414C20432D53494D504C4946494544204649534820)]
def names_167 : List (Nat × Nat) := [
  (0x2EE6, 0x434A4B205241444943414C20432D53494D504C4946494544204249524420),
  (0x2EE7, 0x434A4B205241444943414C20432D53494D504C49464945442053414C5420),
  (0x2EE8, 0x434A4B205241444943414C2053494D504C494649454420574845415420),
  (0x2EE9, 0x434A4B205241444943414C2053494D504C49464945442059454C4C4F5720),
  (0x2EEA, 0x434A4B205241444943414C20432D53494D504C49464945442046524F4720),
  (0x2EEB, 0x434A4B205241444943414C204A2D53494D504C4946494544204556454E20),
  (0x2EEC, 0x434A4B205241444943414C20432D53494D504C4946494544204556454E20),
  (0x2EED, 0x434A4B205241444943414C204A2D53494D504C494649454420544F4F544820),
  (0x2EEE, 0x434A4B205241444943414C20432D53494D504C494649454420544F4F544820),
  (0x2EEF, 0x434A4B205241444943414C204A2D53494D504C494649454420445241474F4E20),
  (0x2EF0, 0x434A4B205241444943414C20432D53494D504C494649454420445241474F4E20),
  (0x2EF1, 0x434A4B205241444943414C20545552544C4520),
  (0x2EF2, 0x434A4B205241444943414C204A2D53494D504C494649454420545552544C4520),
  (0x2EF3, 0x434A4B205241444943414C20432D53494D504C494649454420545552544C4520),
  (0x2F00, 0x4B414E475849205241444943414C204F4E4520),
  (0x2F01, 0x4B414E475849205241444943414C204C494E4520),
  (0x2F02, 0x4B414E475849205241444943414C20444F5420),
  (0x2F03, 0x4B414E475849205241444943414C20534C41534820),
  (0x2F04, 0x4B414E475849205241444943414C205345434F4E4420),
  (0x2F05, 0x4B414E475849205241444943414C20484F4F4B20),
  (0x2F06, 0x4B414E475849205241444943414C2054574F20),
  (0x2F07, 0x4B414E475849205241444943414C204C494420),
  (0x2F08, 0x4B414E475849205241444943414C204D414E20),
  (0x2F09, 0x4B414E475849205241444943414C204C45475320),
  (0x2F0A, 0x4B414E475849205241444943414C20454E54455220),
  (0x2F0B, 0x4B414E475849205241444943414C20454947485420),
  (0x2F0C, 0x4B414E475849205241444943414C20444F574E20424F5820),
  (0x2F0D, 0x4B414E475849205241444943414C20434F56455220),
  (0x2F0E, 0x4B414E475849205241444943414C2049434520),
  (0x2F0F, 0x4B414E475849205241444943414C205441424C4520),
  (0x2F10, 0x4B414E475849205241444943414C204F50454E20424F5820),
  (0x2F11, 0x4B414E475849205241444943414C204B4E49464520),
  (0x2F12, 0x4B414E475849205241444943414C20504F57455220),
  (0x2F13, 0x4B414E475849205241444943414C205752415020),
  (0x2F14, 0x4B414E475849205241444943414C2053504F4F4E20),
  (0x2F15, 0x4B414E475849205241444943414C205249474854204F50454E20424F5820),
  (0x2F16, 0x4B414E475849205241444943414C20484944494E4720454E434C4F5355524520),
  (0x2F17, 0x4B414E475849205241444943414C2054454E20),
  (0x2F18, 0x4B414E475849205241444943414C20444956494E4154494F4E20),
  (0x2F19, 0x4B414E475849205241444943414C205345414C20),
  (0x2F1A, 0x4B414E475849205241444943414C20434C49464620),
  (0x2F1B, 0x4B414E475849205241444943414C205052495641544520),
  (0x2F1C, 0x4B414E475849205241444943414C20414741494E20),
  (0x2F1D, 0x4B414E475849205241444943414C204D4F55544820),
  (0x2F1E, 0x4B414E475849205241444943414C20454E434C4F5355524520),
  (0x2F1F, 0x4B414E475849205241444943414C20454152544820),
  (0x2F20, 0x4B414E475849205241444943414C205343484F4C415220),
  (0x2F21, 0x4B414E475849205241444943414C20474F20),
  (0x2F22, 0x4B414E475849205241444943414C20474F20534C4F574C5920),
  (0x2F23, 0x4B414E475849205241444943414C204556454E494E4720),
  (0x2F24, 0x4B414E475849205241444943414C2042494720),
  (0x2F25, 0x4B414E475849205241444943414C20574F4D414E20),
  (0x2F26, 0x4B414E475849205241444943414C204348494C4420),
  (0x2F27, 0x4B414E475849205241444943414C20524F4F4620),
  (0x2F28, 0x4B414E475849205241444943414C20494E434820),
  (0x2F29, 0x4B414E475849205241444943414C20534D414C4C20),
  (0x2F2A, 0x4B414E475849205241444943414C204C414D4520),
  (0x2F2B, 0x4B414E475849205241444943414C20434F5250534520),
  (0x2F2C, 0x4B414E475849205241444943414C205350524F555420),
  (0x2F2D, 0x4B414E475849205241444943414C204D4F554E5441494E20),
  (0x2F2E, 0x4B414E475849205241444943414C20524956455220),
  (0x2F2F, 0x4B414E475849205241444943414C20574F524B20),
  (0x2F30, 0x4B414E475849205241444943414C204F4E4553454C4620),
  (0x2F31, 0x4B414E475849205241444943414C2054555242414E20)]
def names_168 : List (Nat × Nat) := [
  (0x2F32, 0x4B414E475849205241444943414C2044525920),
  (0x2F33, 0x4B414E475849205241444943414C2053484F52542054485245414420),
  (0x2F34, 0x4B414E475849205241444943414C20444F5454454420434C49464620),
  (0x2F35, 0x4B414E475849205241444943414C204C4F4E472053545249444520),
  (0x2F36, 0x4B414E475849205241444943414C2054574F2048414E445320),
  (0x2F37, 0x4B414E475849205241444943414C2053484F4F5420),
  (0x2F38, 0x4B414E475849205241444943414C20424F5720),
  (0x2F39, 0x4B414E475849205241444943414C20534E4F555420),
  (0x2F3A, 0x4B414E475849205241444943414C2042524953544C4520),
  (0x2F3B, 0x4B414E475849205241444943414C205354455020),
  (0x2F3C, 0x4B414E475849205241444943414C20484541525420),
  (0x2F3D, 0x4B414E475849205241444943414C2048414C4245524420),
  (0x2F3E, 0x4B414E475849205241444943414C20444F4F5220),
  (0x2F3F, 0x4B414E475849205241444943414C2048414E4420),
  (0x2F40, 0x4B414E475849205241444943414C204252414E434820),
  (0x2F41, 0x4B414E475849205241444943414C2052415020),
  (0x2F42, 0x4B414E475849205241444943414C2053435249505420),
  (0x2F43, 0x4B414E475849205241444943414C2044495050455220),
  (0x2F44, 0x4B414E475849205241444943414C2041584520),
  (0x2F45, 0x4B414E475849205241444943414C2053515541524520),
  (0x2F46, 0x4B414E475849205241444943414C204E4F5420),
  (0x2F47, 0x4B414E475849205241444943414C2053554E20),
  (0x2F48, 0x4B414E475849205241444943414C2053415920),
  (0x2F49, 0x4B414E475849205241444943414C204D4F4F4E20),
  (0x2F4A, 0x4B414E475849205241444943414C205452454520),
  (0x2F4B, 0x4B414E475849205241444943414C204C41434B20),
  (0x2F4C, 0x4B414E475849205241444943414C2053544F5020),
  (0x2F4D, 0x4B414E475849205241444943414C20444541544820),
  (0x2F4E, 0x4B414E475849205241444943414C20574541504F4E20),
  (0x2F4F, 0x4B414E475849205241444943414C20444F204E4F5420),
  (0x2F50, 0x4B414E475849205241444943414C20434F4D5041524520),
  (0x2F51, 0x4B414E475849205241444943414C2046555220),
  (0x2F52, 0x4B414E475849205241444943414C20434C414E20),
  (0x2F53, 0x4B414E475849205241444943414C20535445414D20),
  (0x2F54, 0x4B414E475849205241444943414C20574154455220),
  (0x2F55, 0x4B414E475849205241444943414C204649524520),
  (0x2F56, 0x4B414E475849205241444943414C20434C415720),
  (0x2F57, 0x4B414E475849205241444943414C2046415448455220),
  (0x2F58, 0x4B414E475849205241444943414C20444F55424C45205820),
  (0x2F59, 0x4B414E475849205241444943414C2048414C462054524545205452554E4B20),
  (0x2F5A, 0x4B414E475849205241444943414C20534C49434520),
  (0x2F5B, 0x4B414E475849205241444943414C2046414E4720),
  (0x2F5C, 0x4B414E475849205241444943414C20434F5720),
  (0x2F5D, 0x4B414E475849205241444943414C20444F4720),
  (0x2F5E, 0x4B414E475849205241444943414C2050524F464F554E4420),
  (0x2F5F, 0x4B414E475849205241444943414C204A41444520),
  (0x2F60, 0x4B414E475849205241444943414C204D454C4F4E20),
  (0x2F61, 0x4B414E475849205241444943414C2054494C4520),
  (0x2F62, 0x4B414E475849205241444943414C20535745455420),
  (0x2F63, 0x4B414E475849205241444943414C204C49464520),
  (0x2F64, 0x4B414E475849205241444943414C2055534520),
  (0x2F65, 0x4B414E475849205241444943414C204649454C4420),
  (0x2F66, 0x4B414E475849205241444943414C20424F4C54204F4620434C4F544820),
  (0x2F67, 0x4B414E475849205241444943414C205349434B4E45535320),
  (0x2F68, 0x4B414E475849205241444943414C20444F545445442054454E5420),
  (0x2F69, 0x4B414E475849205241444943414C20574849544520),
  (0x2F6A, 0x4B414E475849205241444943414C20534B494E20),
  (0x2F6B, 0x4B414E475849205241444943414C204449534820),
  (0x2F6C, 0x4B414E475849205241444943414C2045594520),
  (0x2F6D, 0x4B414E475849205241444943414C20535045415220),
  (0x2F6E, 0x4B414E475849205241444943414C204152524F5720),
  (0x2F6F, 0x4B414E475849205241444943414C2053544F4E4520),
  (0x2F70, 0x4B414E475849205241444943414C2053504952495420),
  (0x2F71, 0x4B414E475849205241444943414C20545241434B20)]
def names_169 : List (Nat × Nat) := [
  (0x2F72, 0x4B414E475849205241444943414C20475241494E20),
  (0x2F73, 0x4B414E475849205241444943414C204341564520),
  (0x2F74, 0x4B414E475849205241444943414C205354414E4420),
  (0x2F75, 0x4B414E475849205241444943414C2042414D424F4F20),
  (0x2F76, 0x4B414E475849205241444943414C205249434520),
  (0x2F77, 0x4B414E475849205241444943414C2053494C4B20),
  (0x2F78, 0x4B414E475849205241444943414C204A415220),
  (0x2F79, 0x4B414E475849205241444943414C204E455420),
  (0x2F7A, 0x4B414E475849205241444943414C20534845455020),
  (0x2F7B, 0x4B414E475849205241444943414C204645415448455220),
  (0x2F7C, 0x4B414E475849205241444943414C204F4C4420),
  (0x2F7D, 0x4B414E475849205241444943414C20414E4420),
  (0x2F7E, 0x4B414E475849205241444943414C20504C4F5720),
  (0x2F7F, 0x4B414E475849205241444943414C2045415220),
  (0x2F80, 0x4B414E475849205241444943414C20425255534820),
  (0x2F81, 0x4B414E475849205241444943414C204D45415420),
  (0x2F82, 0x4B414E475849205241444943414C204D494E495354455220),
  (0x2F83, 0x4B414E475849205241444943414C2053454C4620),
  (0x2F84, 0x4B414E475849205241444943414C2041525249564520),
  (0x2F85, 0x4B414E475849205241444943414C204D4F5254415220),
  (0x2F86, 0x4B414E475849205241444943414C20544F4E47554520),
  (0x2F87, 0x4B414E475849205241444943414C204F50504F534520),
  (0x2F88, 0x4B414E475849205241444943414C20424F415420),
  (0x2F89, 0x4B414E475849205241444943414C2053544F5050494E4720),
  (0x2F8A, 0x4B414E475849205241444943414C20434F4C4F5220),
  (0x2F8B, 0x4B414E475849205241444943414C20475241535320),
  (0x2F8C, 0x4B414E475849205241444943414C20544947455220),
  (0x2F8D, 0x4B414E475849205241444943414C20494E5345435420),
  (0x2F8E, 0x4B414E475849205241444943414C20424C4F4F4420),
  (0x2F8F, 0x4B414E475849205241444943414C2057414C4B20454E434C4F5355524520),
  (0x2F90, 0x4B414E475849205241444943414C20434C4F5448455320),
  (0x2F91, 0x4B414E475849205241444943414C205745535420),
  (0x2F92, 0x4B414E475849205241444943414C2053454520),
  (0x2F93, 0x4B414E475849205241444943414C20484F524E20),
  (0x2F94, 0x4B414E475849205241444943414C2053504545434820),
  (0x2F95, 0x4B414E475849205241444943414C2056414C4C455920),
  (0x2F96, 0x4B414E475849205241444943414C204245414E20),
  (0x2F97, 0x4B414E475849205241444943414C2050494720),
  (0x2F98, 0x4B414E475849205241444943414C2042414447455220),
  (0x2F99, 0x4B414E475849205241444943414C205348454C4C20),
  (0x2F9A, 0x4B414E475849205241444943414C2052454420),
  (0x2F9B, 0x4B414E475849205241444943414C2052554E20),
  (0x2F9C, 0x4B414E475849205241444943414C20464F4F5420),
  (0x2F9D, 0x4B414E475849205241444943414C20424F445920),
  (0x2F9E, 0x4B414E475849205241444943414C204341525420),
  (0x2F9F, 0x4B414E475849205241444943414C2042495454455220),
  (0x2FA0, 0x4B414E475849205241444943414C204D4F524E494E4720),
  (0x2FA1, 0x4B414E475849205241444943414C2057414C4B20),
  (0x2FA2, 0x4B414E475849205241444943414C204349545920),
  (0x2FA3, 0x4B414E475849205241444943414C2057494E4520),
  (0x2FA4, 0x4B414E475849205241444943414C2044495354494E475549534820),
  (0x2FA5, 0x4B414E475849205241444943414C2056494C4C41474520),
  (0x2FA6, 0x4B414E475849205241444943414C20474F4C4420),
  (0x2FA7, 0x4B414E475849205241444943414C204C4F4E4720),
  (0x2FA8, 0x4B414E475849205241444943414C204741544520),
  (0x2FA9, 0x4B414E475849205241444943414C204D4F554E4420),
  (0x2FAA, 0x4B414E475849205241444943414C20534C41564520),
  (0x2FAB, 0x4B414E475849205241444943414C2053484F5254205441494C4544204249524420),
  (0x2FAC, 0x4B414E475849205241444943414C205241494E20),
  (0x2FAD, 0x4B414E475849205241444943414C20424C554520),
  (0x2FAE, 0x4B414E475849205241444943414C2057524F4E4720),
  (0x2FAF, 0x4B414E475849205241444943414C204641434520),
  (0x2FB0, 0x4B414E475849205241444943414C204C45415448455220),
  (0x2FB1, 0x4B414E475849205241444943414C2054414E4E4544204C45415448455220)]
def names_170 : List (Nat × Nat) := [
  (0x2FB2, 0x4B414E475849205241444943414C204C45454B20),
  (0x2FB3, 0x4B414E475849205241444943414C20534F554E4420),
  (0x2FB4, 0x4B414E475849205241444943414C204C45414620),
  (0x2FB5, 0x4B414E475849205241444943414C2057494E4420),
  (0x2FB6, 0x4B414E475849205241444943414C20464C5920),
  (0x2FB7, 0x4B414E475849205241444943414C2045415420),
  (0x2FB8, 0x4B414E475849205241444943414C204845414420),
  (0x2FB9, 0x4B414E475849205241444943414C204652414752414E5420),
  (0x2FBA, 0x4B414E475849205241444943414C20484F52534520),
  (0x2FBB, 0x4B414E475849205241444943414C20424F4E4520),
  (0x2FBC, 0x4B414E475849205241444943414C2054414C4C20),
  (0x2FBD, 0x4B414E475849205241444943414C204841495220),
  (0x2FBE, 0x4B414E475849205241444943414C20464947485420),
  (0x2FBF, 0x4B414E475849205241444943414C20534143524946494349414C2057494E4520),
  (0x2FC0, 0x4B414E475849205241444943414C204341554C44524F4E20),
  (0x2FC1, 0x4B414E475849205241444943414C2047484F535420),
  (0x2FC2, 0x4B414E475849205241444943414C204649534820),
  (0x2FC3, 0x4B414E475849205241444943414C204249524420),
  (0x2FC4, 0x4B414E475849205241444943414C2053414C5420),
  (0x2FC5, 0x4B414E475849205241444943414C204445455220),
  (0x2FC6, 0x4B414E475849205241444943414C20574845415420),
  (0x2FC7, 0x4B414E475849205241444943414C2048454D5020),
  (0x2FC8, 0x4B414E475849205241444943414C2059454C4C4F5720),
  (0x2FC9, 0x4B414E475849205241444943414C204D494C4C455420),
  (0x2FCA, 0x4B414E475849205241444943414C20424C41434B20),
  (0x2FCB, 0x4B414E475849205241444943414C20454D42524F494445525920),
  (0x2FCC, 0x4B414E475849205241444943414C2046524F4720),
  (0x2FCD, 0x4B414E475849205241444943414C20545249504F4420),
  (0x2FCE, 0x4B414E475849205241444943414C204452554D20),
  (0x2FCF, 0x4B414E475849205241444943414C2052415420),
  (0x2FD0, 0x4B414E475849205241444943414C204E4F534520),
  (0x2FD1, 0x4B414E475849205241444943414C204556454E20),
  (0x2FD2, 0x4B414E475849205241444943414C20544F4F544820),
  (0x2FD3, 0x4B414E475849205241444943414C20445241474F4E20),
  (0x2FD4, 0x4B414E475849205241444943414C20545552544C4520),
  (0x2FD5, 0x4B414E475849205241444943414C20464C55544520),
  (0x2FF0, 0x4944454F47524150484943204445534352495054494F4E20434841524143544552204C45465420544F20524947485420),
  (0x2FF1, 0x4944454F47524150484943204445534352495054494F4E204348415241435445522041424F564520544F2042454C4F5720),
  (0x2FF2, 0x4944454F47524150484943204445534352495054494F4E20434841524143544552204C45465420544F204D4944444C4520414E4420524947485420),
  (0x2FF3, 0x4944454F47524150484943204445534352495054494F4E204348415241435445522041424F564520544F204D4944444C4520414E442042454C4F5720),
  (0x2FF4, 0x4944454F47524150484943204445534352495054494F4E204348415241435445522046554C4C20535552524F554E4420),
  (0x2FF5, 0x4944454F47524150484943204445534352495054494F4E2043484152414354455220535552524F554E442046524F4D2041424F564520),
  (0x2FF6, 0x4944454F47524150484943204445534352495054494F4E2043484152414354455220535552524F554E442046524F4D2042454C4F5720),
  (0x2FF7, 0x4944454F47524150484943204445534352495054494F4E2043484152414354455220535552524F554E442046524F4D204C45465420),
  (0x2FF8, 0x4944454F47524150484943204445534352495054494F4E2043484152414354455220535552524F554E442046524F4D205550504552204C45465420),
  (0x2FF9, 0x4944454F47524150484943204445534352495054494F4E2043484152414354455220535552524F554E442046524F4D20555050455220524947485420),
  (0x2FFA, 0x4944454F47524150484943204445534352495054494F4E2043484152414354455220535552524F554E442046524F4D204C4F574552204C45465420),
  (0x2FFB, 0x4944454F47524150484943204445534352495054494F4E20434841524143544552204F5645524C41494420),
  (0x3000, 0x4944454F4752415048494320535041434520),
  (0x3001, 0x4944454F4752415048494320434F4D4D4120),
  (0x3002, 0x4944454F475241504849432046554C4C2053544F5020),
  (0x3003, 0x444954544F204D41524B20),
  (0x3004, 0x4A4150414E45534520494E445553545249414C205354414E444152442053594D424F4C20),
  (0x3005, 0x4944454F4752415048494320495445524154494F4E204D41524B20),
  (0x3006, 0x4944454F4752415048494320434C4F53494E47204D41524B20),
  (0x3007, 0x4944454F47524150484943204E554D424552205A45524F20),
  (0x3008, 0x4C45465420414E474C4520425241434B455420),
  (0x3009, 0x524947485420414E474C4520425241434B455420),
  (0x300A, 0x4C45465420444F55424C4520414E474C4520425241434B455420),
  (0x300B, 0x524947485420444F55424C4520414E474C4520425241434B455420),
  (0x300C, 0x4C45465420434F524E455220425241434B455420),
  (0x300D, 0x524947485420434F524E455220425241434B455420),
  (0x300E, 0x4C45465420574849544520434F524E455220425241434B455420),
  (0x300F, 0x524947485420574849544520434F524E455220425241434B455420)]
def names_171 : List (Nat × Nat) := [
  (0x3010, 0x4C45465420424C41434B204C454E544943554C415220425241434B455420),
  (0x3011, 0x524947485420424C41434B204C454E544943554C415220425241434B455420),
  (0x3012, 0x504F5354414C204D41524B20),
  (0x3013, 0x47455441204D41524B20),
  (0x3014, 0x4C45465420544F52544F495345205348454C4C20425241434B455420),
  (0x3015, 0x524947485420544F52544F495345205348454C4C20425241434B455420),
  (0x3016, 0x4C454654205748495445204C454E544943554C415220425241434B455420),
  (0x3017, 0x5249474854205748495445204C454E544943554C415220425241434B455420),
  (0x3018, 0x4C45465420574849544520544F52544F495345205348454C4C20425241434B455420),
  (0x3019, 0x524947485420574849544520544F52544F495345205348454C4C20425241434B455420),
  (0x301A, 0x4C4546542057484954452053515541524520425241434B455420),
  (0x301B, 0x52494748542057484954452053515541524520425241434B455420),
  (0x301C, 0x57415645204441534820),
  (0x301D, 0x524556455253454420444F55424C45205052494D452051554F544154494F4E204D41524B20),
  (0x301E, 0x444F55424C45205052494D452051554F544154494F4E204D41524B20),
  (0x301F, 0x4C4F5720444F55424C45205052494D452051554F544154494F4E204D41524B20),
  (0x3020, 0x504F5354414C204D41524B204641434520),
  (0x3021, 0x48414E475A484F55204E554D4552414C204F4E4520),
  (0x3022, 0x48414E475A484F55204E554D4552414C2054574F20),
  (0x3023, 0x48414E475A484F55204E554D4552414C20544852454520),
  (0x3024, 0x48414E475A484F55204E554D4552414C20464F555220),
  (0x3025, 0x48414E475A484F55204E554D4552414C204649564520),
  (0x3026, 0x48414E475A484F55204E554D4552414C2053495820),
  (0x3027, 0x48414E475A484F55204E554D4552414C20534556454E20),
  (0x3028, 0x48414E475A484F55204E554D4552414C20454947485420),
  (0x3029, 0x48414E475A484F55204E554D4552414C204E494E4520),
  (0x302A, 0x4944454F47524150484943204C4556454C20544F4E45204D41524B20),
  (0x302B, 0x4944454F4752415048494320524953494E4720544F4E45204D41524B20),
  (0x302C, 0x4944454F4752415048494320444550415254494E4720544F4E45204D41524B20),
  (0x302D, 0x4944454F4752415048494320454E544552494E4720544F4E45204D41524B20),
  (0x302E, 0x48414E47554C2053494E474C4520444F5420544F4E45204D41524B20),
  (0x302F, 0x48414E47554C20444F55424C4520444F5420544F4E45204D41524B20),
  (0x3030, 0x57415659204441534820),
  (0x3031, 0x564552544943414C204B414E4120524550454154204D41524B20),
  (0x3032, 0x564552544943414C204B414E4120524550454154205749544820564F4943454420534F554E44204D41524B20),
  (0x3033, 0x564552544943414C204B414E4120524550454154204D41524B2055505045522048414C4620),
  (0x3034, 0x564552544943414C204B414E4120524550454154205749544820564F4943454420534F554E44204D41524B2055505045522048414C4620),
  (0x3035, 0x564552544943414C204B414E4120524550454154204D41524B204C4F5745522048414C4620),
  (0x3036, 0x434952434C454420504F5354414C204D41524B20),
  (0x3037, 0x4944454F475241504849432054454C454752415048204C494E45204645454420534550415241544F522053594D424F4C20),
  (0x3038, 0x48414E475A484F55204E554D4552414C2054454E20),
  (0x3039, 0x48414E475A484F55204E554D4552414C205457454E545920),
  (0x303A, 0x48414E475A484F55204E554D4552414C2054484952545920),
  (0x303B, 0x564552544943414C204944454F4752415048494320495445524154494F4E204D41524B20),
  (0x303C, 0x4D415355204D41524B20),
  (0x303D, 0x5041525420414C5445524E4154494F4E204D41524B20),
  (0x303E, 0x4944454F4752415048494320564152494154494F4E20494E44494341544F5220),
  (0x303F, 0x4944454F475241504849432048414C462046494C4C20535041434520),
  (0x3041, 0x4849524147414E41204C455454455220534D414C4C204120),
  (0x3042, 0x4849524147414E41204C4554544552204120),
  (0x3043, 0x4849524147414E41204C455454455220534D414C4C204920),
  (0x3044, 0x4849524147414E41204C4554544552204920),
  (0x3045, 0x4849524147414E41204C455454455220534D414C4C205520),
  (0x3046, 0x4849524147414E41204C4554544552205520),
  (0x3047, 0x4849524147414E41204C455454455220534D414C4C204520),
  (0x3048, 0x4849524147414E41204C4554544552204520),
  (0x3049, 0x4849524147414E41204C455454455220534D414C4C204F20),
  (0x304A, 0x4849524147414E41204C4554544552204F20),
  (0x304B, 0x4849524147414E41204C4554544552204B4120),
  (0x304C, 0x4849524147414E41204C455454455220474120),
  (0x304D, 0x4849524147414E41204C4554544552204B4920),
  (0x304E, 0x4849524147414E41204C455454455220474920),
  (0x304F, 0x4849524147414E41204C4554544552204B5520),
  (0x3050, 0x4849524147414E41204C455454455220475520)]
def names_172 : List (Nat × Nat) := [
  (0x3051, 0x4849524147414E41204C4554544552204B4520),
  (0x3052, 0x4849524147414E41204C455454455220474520),
  (0x3053, 0x4849524147414E41204C4554544552204B4F20),
  (0x3054, 0x4849524147414E41204C455454455220474F20),
  (0x3055, 0x4849524147414E41204C455454455220534120),
  (0x3056, 0x4849524147414E41204C4554544552205A4120),
  (0x3057, 0x4849524147414E41204C455454455220534920),
  (0x3058, 0x4849524147414E41204C4554544552205A4920),
  (0x3059, 0x4849524147414E41204C455454455220535520),
  (0x305A, 0x4849524147414E41204C4554544552205A5520),
  (0x305B, 0x4849524147414E41204C455454455220534520),
  (0x305C, 0x4849524147414E41204C4554544552205A4520),
  (0x305D, 0x4849524147414E41204C455454455220534F20),
  (0x305E, 0x4849524147414E41204C4554544552205A4F20),
  (0x305F, 0x4849524147414E41204C455454455220544120),
  (0x3060, 0x4849524147414E41204C455454455220444120),
  (0x3061, 0x4849524147414E41204C455454455220544920),
  (0x3062, 0x4849524147414E41204C455454455220444920),
  (0x3063, 0x4849524147414E41204C455454455220534D414C4C20545520),
  (0x3064, 0x4849524147414E41204C455454455220545520),
  (0x3065, 0x4849524147414E41204C455454455220445520),
  (0x3066, 0x4849524147414E41204C455454455220544520),
  (0x3067, 0x4849524147414E41204C455454455220444520),
  (0x3068, 0x4849524147414E41204C455454455220544F20),
  (0x3069, 0x4849524147414E41204C455454455220444F20),
  (0x306A, 0x4849524147414E41204C4554544552204E4120),
  (0x306B, 0x4849524147414E41204C4554544552204E4920),
  (0x306C, 0x4849524147414E41204C4554544552204E5520),
  (0x306D, 0x4849524147414E41204C4554544552204E4520),
  (0x306E, 0x4849524147414E41204C4554544552204E4F20),
  (0x306F, 0x4849524147414E41204C455454455220484120),
  (0x3070, 0x4849524147414E41204C455454455220424120),
  (0x3071, 0x4849524147414E41204C455454455220504120),
  (0x3072, 0x4849524147414E41204C455454455220484920),
  (0x3073, 0x4849524147414E41204C455454455220424920),
  (0x3074, 0x4849524147414E41204C455454455220504920),
  (0x3075, 0x4849524147414E41204C455454455220485520),
  (0x3076, 0x4849524147414E41204C455454455220425520),
  (0x3077, 0x4849524147414E41204C455454455220505520),
  (0x3078, 0x4849524147414E41204C455454455220484520),
  (0x3079, 0x4849524147414E41204C455454455220424520),
  (0x307A, 0x4849524147414E41204C455454455220504520),
  (0x307B, 0x4849524147414E41204C455454455220484F20),
  (0x307C, 0x4849524147414E41204C455454455220424F20),
  (0x307D, 0x4849524147414E41204C455454455220504F20),
  (0x307E, 0x4849524147414E41204C4554544552204D4120),
  (0x307F, 0x4849524147414E41204C4554544552204D4920),
  (0x3080, 0x4849524147414E41204C4554544552204D5520),
  (0x3081, 0x4849524147414E41204C4554544552204D4520),
  (0x3082, 0x4849524147414E41204C4554544552204D4F20),
  (0x3083, 0x4849524147414E41204C455454455220534D414C4C20594120),
  (0x3084, 0x4849524147414E41204C455454455220594120),
  (0x3085, 0x4849524147414E41204C455454455220534D414C4C20595520),
  (0x3086, 0x4849524147414E41204C455454455220595520),
  (0x3087, 0x4849524147414E41204C455454455220534D414C4C20594F20),
  (0x3088, 0x4849524147414E41204C455454455220594F20),
  (0x3089, 0x4849524147414E41204C455454455220524120),
  (0x308A, 0x4849524147414E41204C455454455220524920),
  (0x308B, 0x4849524147414E41204C455454455220525520),
  (0x308C, 0x4849524147414E41204C455454455220524520),
  (0x308D, 0x4849524147414E41204C455454455220524F20),
  (0x308E, 0x4849524147414E41204C455454455220534D414C4C20574120),
  (0x308F, 0x4849524147414E41204C455454455220574120),
  (0x3090, 0x4849524147414E41204C455454455220574920)]
def names_173 : List (Nat × Nat) := [
  (0x3091, 0x4849524147414E41204C455454455220574520),
  (0x3092, 0x4849524147414E41204C455454455220574F20),
  (0x3093, 0x4849524147414E41204C4554544552204E20),
  (0x3094, 0x4849524147414E41204C455454455220565520),
  (0x3095, 0x4849524147414E41204C455454455220534D414C4C204B4120),
  (0x3096, 0x4849524147414E41204C455454455220534D414C4C204B4520),
  (0x3099, 0x434F4D42494E494E47204B4154414B414E412D4849524147414E4120564F4943454420534F554E44204D41524B20),
  (0x309A, 0x434F4D42494E494E47204B4154414B414E412D4849524147414E412053454D492D564F4943454420534F554E44204D41524B20),
  (0x309B, 0x4B4154414B414E412D4849524147414E4120564F4943454420534F554E44204D41524B20),
  (0x309C, 0x4B4154414B414E412D4849524147414E412053454D492D564F4943454420534F554E44204D41524B20),
  (0x309D, 0x4849524147414E4120495445524154494F4E204D41524B20),
  (0x309E, 0x4849524147414E4120564F4943454420495445524154494F4E204D41524B20),
  (0x309F, 0x4849524147414E41204449475241504820594F524920),
  (0x30A0, 0x4B4154414B414E412D4849524147414E4120444F55424C452048595048454E20),
  (0x30A1, 0x4B4154414B414E41204C455454455220534D414C4C204120),
  (0x30A2, 0x4B4154414B414E41204C4554544552204120),
  (0x30A3, 0x4B4154414B414E41204C455454455220534D414C4C204920),
  (0x30A4, 0x4B4154414B414E41204C4554544552204920),
  (0x30A5, 0x4B4154414B414E41204C455454455220534D414C4C205520),
  (0x30A6, 0x4B4154414B414E41204C4554544552205520),
  (0x30A7, 0x4B4154414B414E41204C455454455220534D414C4C204520),
  (0x30A8, 0x4B4154414B414E41204C4554544552204520),
  (0x30A9, 0x4B4154414B414E41204C455454455220534D414C4C204F20),
  (0x30AA, 0x4B4154414B414E41204C4554544552204F20),
  (0x30AB, 0x4B4154414B414E41204C4554544552204B4120),
  (0x30AC, 0x4B4154414B414E41204C455454455220474120),
  (0x30AD, 0x4B4154414B414E41204C4554544552204B4920),
  (0x30AE, 0x4B4154414B414E41204C455454455220474920),
  (0x30AF, 0x4B4154414B414E41204C4554544552204B5520),
  (0x30B0, 0x4B4154414B414E41204C455454455220475520),
  (0x30B1, 0x4B4154414B414E41204C4554544552204B4520),
  (0x30B2, 0x4B4154414B414E41204C455454455220474520),
  (0x30B3, 0x4B4154414B414E41204C4554544552204B4F20),
  (0x30B4, 0x4B4154414B414E41204C455454455220474F20),
  (0x30B5, 0x4B4154414B414E41204C455454455220534120),
  (0x30B6, 0x4B4154414B414E41204C4554544552205A4120),
  (0x30B7, 0x4B4154414B414E41204C455454455220534920),
  (0x30B8, 0x4B4154414B414E41204C4554544552205A4920),
  (0x30B9, 0x4B4154414B414E41204C455454455220535520),
  (0x30BA, 0x4B4154414B414E41204C4554544552205A5520),
  (0x30BB, 0x4B4154414B414E41204C455454455220534520),
  (0x30BC, 0x4B4154414B414E41204C4554544552205A4520),
  (0x30BD, 0x4B4154414B414E41204C455454455220534F20),
  (0x30BE, 0x4B4154414B414E41204C4554544552205A4F20),
  (0x30BF, 0x4B4154414B414E41204C455454455220544120),
  (0x30C0, 0x4B4154414B414E41204C455454455220444120),
  (0x30C1, 0x4B4154414B414E41204C455454455220544920),
  (0x30C2, 0x4B4154414B414E41204C455454455220444920),
  (0x30C3, 0x4B4154414B414E41204C455454455220534D414C4C20545520),
  (0x30C4, 0x4B4154414B414E41204C455454455220545520),
  (0x30C5, 0x4B4154414B414E41204C455454455220445520),
  (0x30C6, 0x4B4154414B414E41204C455454455220544520),
  (0x30C7, 0x4B4154414B414E41204C455454455220444520),
  (0x30C8, 0x4B4154414B414E41204C455454455220544F20),
  (0x30C9, 0x4B4154414B414E41204C455454455220444F20),
  (0x30CA, 0x4B4154414B414E41204C4554544552204E4120),
  (0x30CB, 0x4B4154414B414E41204C4554544552204E4920),
  (0x30CC, 0x4B4154414B414E41204C4554544552204E5520),
  (0x30CD, 0x4B4154414B414E41204C4554544552204E4520),
  (0x30CE, 0x4B4154414B414E41204C4554544552204E4F20),
  (0x30CF, 0x4B4154414B414E41204C455454455220484120),
  (0x30D0, 0x4B4154414B414E41204C455454455220424120),
  (0x30D1, 0x4B4154414B414E41204C455454455220504120),
  (0x30D2, 0x4B4154414B414E41204C455454455220484920)]
def names_174 : List (Nat × Nat) := [
  (0x30D3, 0x4B4154414B414E41204C455454455220424920),
  (0x30D4, 0x4B4154414B414E41204C455454455220504920),
  (0x30D5, 0x4B4154414B414E41204C455454455220485520),
  (0x30D6, 0x4B4154414B414E41204C455454455220425520),
  (0x30D7, 0x4B4154414B414E41204C455454455220505520),
  (0x30D8, 0x4B4154414B414E41204C455454455220484520),
  (0x30D9, 0x4B4154414B414E41204C455454455220424520),
  (0x30DA, 0x4B4154414B414E41204C455454455220504520),
  (0x30DB, 0x4B4154414B414E41204C455454455220484F20),
  (0x30DC, 0x4B4154414B414E41204C455454455220424F20),
  (0x30DD, 0x4B4154414B414E41204C455454455220504F20),
  (0x30DE, 0x4B4154414B414E41204C4554544552204D4120),
  (0x30DF, 0x4B4154414B414E41204C4554544552204D4920),
  (0x30E0, 0x4B4154414B414E41204C4554544552204D5520),
  (0x30E1, 0x4B4154414B414E41204C4554544552204D4520),
  (0x30E2, 0x4B4154414B414E41204C4554544552204D4F20),
  (0x30E3, 0x4B4154414B414E41204C455454455220534D414C4C20594120),
  (0x30E4, 0x4B4154414B414E41204C455454455220594120),
  (0x30E5, 0x4B4154414B414E41204C455454455220534D414C4C20595520),
  (0x30E6, 0x4B4154414B414E41204C455454455220595520),
  (0x30E7, 0x4B4154414B414E41204C455454455220534D414C4C20594F20),
  (0x30E8, 0x4B4154414B414E41204C455454455220594F20),
  (0x30E9, 0x4B4154414B414E41204C455454455220524120),
  (0x30EA, 0x4B4154414B414E41204C455454455220524920),
  (0x30EB, 0x4B4154414B414E41204C455454455220525520),
  (0x30EC, 0x4B4154414B414E41204C455454455220524520),
  (0x30ED, 0x4B4154414B414E41204C455454455220524F20),
  (0x30EE, 0x4B4154414B414E41204C455454455220534D414C4C20574120),
  (0x30EF, 0x4B4154414B414E41204C455454455220574120),
  (0x30F0, 0x4B4154414B414E41204C455454455220574920),
  (0x30F1, 0x4B4154414B414E41204C455454455220574520),
  (0x30F2, 0x4B4154414B414E41204C455454455220574F20),
  (0x30F3, 0x4B4154414B414E41204C4554544552204E20),
  (0x30F4, 0x4B4154414B414E41204C455454455220565520),
  (0x30F5, 0x4B4154414B414E41204C455454455220534D414C4C204B4120),
  (0x30F6, 0x4B4154414B414E41204C455454455220534D414C4C204B4520),
  (0x30F7, 0x4B4154414B414E41204C455454455220564120),
  (0x30F8, 0x4B4154414B414E41204C455454455220564920),
  (0x30F9, 0x4B4154414B414E41204C455454455220564520),
  (0x30FA, 0x4B4154414B414E41204C455454455220564F20),
  (0x30FB, 0x4B4154414B414E41204D4944444C4520444F5420),
  (0x30FC, 0x4B4154414B414E412D4849524147414E412050524F4C4F4E47454420534F554E44204D41524B20),
  (0x30FD, 0x4B4154414B414E4120495445524154494F4E204D41524B20),
  (0x30FE, 0x4B4154414B414E4120564F4943454420495445524154494F4E204D41524B20),
  (0x30FF, 0x4B4154414B414E412044494752415048204B4F544F20),
  (0x3105, 0x424F504F4D4F464F204C4554544552204220),
  (0x3106, 0x424F504F4D4F464F204C4554544552205020),
  (0x3107, 0x424F504F4D4F464F204C4554544552204D20),
  (0x3108, 0x424F504F4D4F464F204C4554544552204620),
  (0x3109, 0x424F504F4D4F464F204C4554544552204420),
  (0x310A, 0x424F504F4D4F464F204C4554544552205420),
  (0x310B, 0x424F504F4D4F464F204C4554544552204E20),
  (0x310C, 0x424F504F4D4F464F204C4554544552204C20),
  (0x310D, 0x424F504F4D4F464F204C4554544552204720),
  (0x310E, 0x424F504F4D4F464F204C4554544552204B20),
  (0x310F, 0x424F504F4D4F464F204C4554544552204820),
  (0x3110, 0x424F504F4D4F464F204C4554544552204A20),
  (0x3111, 0x424F504F4D4F464F204C4554544552205120),
  (0x3112, 0x424F504F4D4F464F204C4554544552205820),
  (0x3113, 0x424F504F4D4F464F204C4554544552205A4820),
  (0x3114, 0x424F504F4D4F464F204C455454455220434820),
  (0x3115, 0x424F504F4D4F464F204C455454455220534820),
  (0x3116, 0x424F504F4D4F464F204C4554544552205220),
  (0x3117, 0x424F504F4D4F464F204C4554544552205A20)]
def names_175 : List (Nat × Nat) := [
  (0x3118, 0x424F504F4D4F464F204C4554544552204320),
  (0x3119, 0x424F504F4D4F464F204C4554544552205320),
  (0x311A, 0x424F504F4D4F464F204C4554544552204120),
  (0x311B, 0x424F504F4D4F464F204C4554544552204F20),
  (0x311C, 0x424F504F4D4F464F204C4554544552204520),
  (0x311D, 0x424F504F4D4F464F204C455454455220454820),
  (0x311E, 0x424F504F4D4F464F204C455454455220414920),
  (0x311F, 0x424F504F4D4F464F204C455454455220454920),
  (0x3120, 0x424F504F4D4F464F204C455454455220415520),
  (0x3121, 0x424F504F4D4F464F204C4554544552204F5520),
  (0x3122, 0x424F504F4D4F464F204C455454455220414E20),
  (0x3123, 0x424F504F4D4F464F204C455454455220454E20),
  (0x3124, 0x424F504F4D4F464F204C455454455220414E4720),
  (0x3125, 0x424F504F4D4F464F204C455454455220454E4720),
  (0x3126, 0x424F504F4D4F464F204C455454455220455220),
  (0x3127, 0x424F504F4D4F464F204C4554544552204920),
  (0x3128, 0x424F504F4D4F464F204C4554544552205520),
  (0x3129, 0x424F504F4D4F464F204C455454455220495520),
  (0x312A, 0x424F504F4D4F464F204C4554544552205620),
  (0x312B, 0x424F504F4D4F464F204C4554544552204E4720),
  (0x312C, 0x424F504F4D4F464F204C455454455220474E20),
  (0x312D, 0x424F504F4D4F464F204C455454455220494820),
  (0x312E, 0x424F504F4D4F464F204C4554544552204F205749544820444F542041424F564520),
  (0x3131, 0x48414E47554C204C4554544552204B4959454F4B20),
  (0x3132, 0x48414E47554C204C4554544552205353414E474B4959454F4B20),
  (0x3133, 0x48414E47554C204C4554544552204B4959454F4B2D53494F5320),
  (0x3134, 0x48414E47554C204C4554544552204E4945554E20),
  (0x3135, 0x48414E47554C204C4554544552204E4945554E2D434945554320),
  (0x3136, 0x48414E47554C204C4554544552204E4945554E2D484945554820),
  (0x3137, 0x48414E47554C204C45545445522054494B45555420),
  (0x3138, 0x48414E47554C204C4554544552205353414E4754494B45555420),
  (0x3139, 0x48414E47554C204C455454455220524945554C20),
  (0x313A, 0x48414E47554C204C455454455220524945554C2D4B4959454F4B20),
  (0x313B, 0x48414E47554C204C455454455220524945554C2D4D4945554D20),
  (0x313C, 0x48414E47554C204C455454455220524945554C2D504945555020),
  (0x313D, 0x48414E47554C204C455454455220524945554C2D53494F5320),
  (0x313E, 0x48414E47554C204C455454455220524945554C2D5448494555544820),
  (0x313F, 0x48414E47554C204C455454455220524945554C2D5048494555504820),
  (0x3140, 0x48414E47554C204C455454455220524945554C2D484945554820),
  (0x3141, 0x48414E47554C204C4554544552204D4945554D20),
  (0x3142, 0x48414E47554C204C455454455220504945555020),
  (0x3143, 0x48414E47554C204C4554544552205353414E47504945555020),
  (0x3144, 0x48414E47554C204C45545445522050494555502D53494F5320),
  (0x3145, 0x48414E47554C204C45545445522053494F5320),
  (0x3146, 0x48414E47554C204C4554544552205353414E4753494F5320),
  (0x3147, 0x48414E47554C204C4554544552204945554E4720),
  (0x3148, 0x48414E47554C204C455454455220434945554320),
  (0x3149, 0x48414E47554C204C4554544552205353414E47434945554320),
  (0x314A, 0x48414E47554C204C4554544552204348494555434820),
  (0x314B, 0x48414E47554C204C4554544552204B484945554B4820),
  (0x314C, 0x48414E47554C204C4554544552205448494555544820),
  (0x314D, 0x48414E47554C204C4554544552205048494555504820),
  (0x314E, 0x48414E47554C204C455454455220484945554820),
  (0x314F, 0x48414E47554C204C4554544552204120),
  (0x3150, 0x48414E47554C204C455454455220414520),
  (0x3151, 0x48414E47554C204C455454455220594120),
  (0x3152, 0x48414E47554C204C45545445522059414520),
  (0x3153, 0x48414E47554C204C455454455220454F20),
  (0x3154, 0x48414E47554C204C4554544552204520),
  (0x3155, 0x48414E47554C204C45545445522059454F20),
  (0x3156, 0x48414E47554C204C455454455220594520),
  (0x3157, 0x48414E47554C204C4554544552204F20),
  (0x3158, 0x48414E47554C204C455454455220574120),
  (0x3159, 0x48414E47554C204C45545445522057414520)]
def names_176 : List (Nat × Nat) := [
  (0x315A, 0x48414E47554C204C4554544552204F4520),
  (0x315B, 0x48414E47554C204C455454455220594F20),
  (0x315C, 0x48414E47554C204C4554544552205520),
  (0x315D, 0x48414E47554C204C45545445522057454F20),
  (0x315E, 0x48414E47554C204C455454455220574520),
  (0x315F, 0x48414E47554C204C455454455220574920),
  (0x3160, 0x48414E47554C204C455454455220595520),
  (0x3161, 0x48414E47554C204C455454455220455520),
  (0x3162, 0x48414E47554C204C455454455220594920),
  (0x3163, 0x48414E47554C204C4554544552204920),
  (0x3164, 0x48414E47554C2046494C4C455220),
  (0x3165, 0x48414E47554C204C4554544552205353414E474E4945554E20),
  (0x3166, 0x48414E47554C204C4554544552204E4945554E2D54494B45555420),
  (0x3167, 0x48414E47554C204C4554544552204E4945554E2D53494F5320),
  (0x3168, 0x48414E47554C204C4554544552204E4945554E2D50414E53494F5320),
  (0x3169, 0x48414E47554C204C455454455220524945554C2D4B4959454F4B2D53494F5320),
  (0x316A, 0x48414E47554C204C455454455220524945554C2D54494B45555420),
  (0x316B, 0x48414E47554C204C455454455220524945554C2D50494555502D53494F5320),
  (0x316C, 0x48414E47554C204C455454455220524945554C2D50414E53494F5320),
  (0x316D, 0x48414E47554C204C455454455220524945554C2D59454F52494E484945554820),
  (0x316E, 0x48414E47554C204C4554544552204D4945554D2D504945555020),
  (0x316F, 0x48414E47554C204C4554544552204D4945554D2D53494F5320),
  (0x3170, 0x48414E47554C204C4554544552204D4945554D2D50414E53494F5320),
  (0x3171, 0x48414E47554C204C4554544552204B415059454F554E4D4945554D20),
  (0x3172, 0x48414E47554C204C45545445522050494555502D4B4959454F4B20),
  (0x3173, 0x48414E47554C204C45545445522050494555502D54494B45555420),
  (0x3174, 0x48414E47554C204C45545445522050494555502D53494F532D4B4959454F4B20),
  (0x3175, 0x48414E47554C204C45545445522050494555502D53494F532D54494B45555420),
  (0x3176, 0x48414E47554C204C45545445522050494555502D434945554320),
  (0x3177, 0x48414E47554C204C45545445522050494555502D5448494555544820),
  (0x3178, 0x48414E47554C204C4554544552204B415059454F554E504945555020),
  (0x3179, 0x48414E47554C204C4554544552204B415059454F554E5353414E47504945555020),
  (0x317A, 0x48414E47554C204C45545445522053494F532D4B4959454F4B20),
  (0x317B, 0x48414E47554C204C45545445522053494F532D4E4945554E20),
  (0x317C, 0x48414E47554C204C45545445522053494F532D54494B45555420),
  (0x317D, 0x48414E47554C204C45545445522053494F532D504945555020),
  (0x317E, 0x48414E47554C204C45545445522053494F532D434945554320),
  (0x317F, 0x48414E47554C204C45545445522050414E53494F5320),
  (0x3180, 0x48414E47554C204C4554544552205353414E474945554E4720),
  (0x3181, 0x48414E47554C204C4554544552205945534945554E4720),
  (0x3182, 0x48414E47554C204C4554544552205945534945554E472D53494F5320),
  (0x3183, 0x48414E47554C204C4554544552205945534945554E472D50414E53494F5320),
  (0x3184, 0x48414E47554C204C4554544552204B415059454F554E5048494555504820),
  (0x3185, 0x48414E47554C204C4554544552205353414E47484945554820),
  (0x3186, 0x48414E47554C204C45545445522059454F52494E484945554820),
  (0x3187, 0x48414E47554C204C455454455220594F2D594120),
  (0x3188, 0x48414E47554C204C455454455220594F2D59414520),
  (0x3189, 0x48414E47554C204C455454455220594F2D4920),
  (0x318A, 0x48414E47554C204C45545445522059552D59454F20),
  (0x318B, 0x48414E47554C204C45545445522059552D594520),
  (0x318C, 0x48414E47554C204C45545445522059552D4920),
  (0x318D, 0x48414E47554C204C455454455220415241454120),
  (0x318E, 0x48414E47554C204C45545445522041524145414520),
  (0x3190, 0x4944454F4752415048494320414E4E4F544154494F4E204C494E4B494E47204D41524B20),
  (0x3191, 0x4944454F4752415048494320414E4E4F544154494F4E2052455645525345204D41524B20),
  (0x3192, 0x4944454F4752415048494320414E4E4F544154494F4E204F4E45204D41524B20),
  (0x3193, 0x4944454F4752415048494320414E4E4F544154494F4E2054574F204D41524B20),
  (0x3194, 0x4944454F4752415048494320414E4E4F544154494F4E205448524545204D41524B20),
  (0x3195, 0x4944454F4752415048494320414E4E4F544154494F4E20464F5552204D41524B20),
  (0x3196, 0x4944454F4752415048494320414E4E4F544154494F4E20544F50204D41524B20),
  (0x3197, 0x4944454F4752415048494320414E4E4F544154494F4E204D4944444C45204D41524B20),
  (0x3198, 0x4944454F4752415048494320414E4E4F544154494F4E20424F54544F4D204D41524B20),
  (0x3199, 0x4944454F4752415048494320414E4E4F544154494F4E204649525354204D41524B20),
  (0x319A, 0x4944454F4752415048494320414E4E4F544154494F4E205345434F4E44204D41524B20)]
def names_177 : List (Nat × Nat) := [
  (0x319B, 0x4944454F4752415048494320414E4E4F544154494F4E205448495244204D41524B20),
  (0x319C, 0x4944454F4752415048494320414E4E4F544154494F4E20464F55525448204D41524B20),
  (0x319D, 0x4944454F4752415048494320414E4E4F544154494F4E2048454156454E204D41524B20),
  (0x319E, 0x4944454F4752415048494320414E4E4F544154494F4E204541525448204D41524B20),
  (0x319F, 0x4944454F4752415048494320414E4E4F544154494F4E204D414E204D41524B20),
  (0x31A0, 0x424F504F4D4F464F204C455454455220425520),
  (0x31A1, 0x424F504F4D4F464F204C4554544552205A4920),
  (0x31A2, 0x424F504F4D4F464F204C4554544552204A4920),
  (0x31A3, 0x424F504F4D4F464F204C455454455220475520),
  (0x31A4, 0x424F504F4D4F464F204C455454455220454520),
  (0x31A5, 0x424F504F4D4F464F204C455454455220454E4E20),
  (0x31A6, 0x424F504F4D4F464F204C4554544552204F4F20),
  (0x31A7, 0x424F504F4D4F464F204C4554544552204F4E4E20),
  (0x31A8, 0x424F504F4D4F464F204C455454455220495220),
  (0x31A9, 0x424F504F4D4F464F204C455454455220414E4E20),
  (0x31AA, 0x424F504F4D4F464F204C455454455220494E4E20),
  (0x31AB, 0x424F504F4D4F464F204C455454455220554E4E20),
  (0x31AC, 0x424F504F4D4F464F204C455454455220494D20),
  (0x31AD, 0x424F504F4D4F464F204C4554544552204E474720),
  (0x31AE, 0x424F504F4D4F464F204C45545445522041494E4E20),
  (0x31AF, 0x424F504F4D4F464F204C45545445522041554E4E20),
  (0x31B0, 0x424F504F4D4F464F204C455454455220414D20),
  (0x31B1, 0x424F504F4D4F464F204C4554544552204F4D20),
  (0x31B2, 0x424F504F4D4F464F204C4554544552204F4E4720),
  (0x31B3, 0x424F504F4D4F464F204C455454455220494E4E4E20),
  (0x31B4, 0x424F504F4D4F464F2046494E414C204C4554544552205020),
  (0x31B5, 0x424F504F4D4F464F2046494E414C204C4554544552205420),
  (0x31B6, 0x424F504F4D4F464F2046494E414C204C4554544552204B20),
  (0x31B7, 0x424F504F4D4F464F2046494E414C204C4554544552204820),
  (0x31B8, 0x424F504F4D4F464F204C455454455220474820),
  (0x31B9, 0x424F504F4D4F464F204C4554544552204C4820),
  (0x31BA, 0x424F504F4D4F464F204C4554544552205A5920),
  (0x31C0, 0x434A4B205354524F4B45205420),
  (0x31C1, 0x434A4B205354524F4B4520574720),
  (0x31C2, 0x434A4B205354524F4B4520584720),
  (0x31C3, 0x434A4B205354524F4B452042584720),
  (0x31C4, 0x434A4B205354524F4B4520535720),
  (0x31C5, 0x434A4B205354524F4B4520485A5A20),
  (0x31C6, 0x434A4B205354524F4B4520485A4720),
  (0x31C7, 0x434A4B205354524F4B4520485020),
  (0x31C8, 0x434A4B205354524F4B4520485A574720),
  (0x31C9, 0x434A4B205354524F4B4520535A574720),
  (0x31CA, 0x434A4B205354524F4B4520485A5420),
  (0x31CB, 0x434A4B205354524F4B4520485A5A5020),
  (0x31CC, 0x434A4B205354524F4B45204850574720),
  (0x31CD, 0x434A4B205354524F4B4520485A5720),
  (0x31CE, 0x434A4B205354524F4B4520485A5A5A20),
  (0x31CF, 0x434A4B205354524F4B45204E20),
  (0x31D0, 0x434A4B205354524F4B45204820),
  (0x31D1, 0x434A4B205354524F4B45205320),
  (0x31D2, 0x434A4B205354524F4B45205020),
  (0x31D3, 0x434A4B205354524F4B4520535020),
  (0x31D4, 0x434A4B205354524F4B45204420),
  (0x31D5, 0x434A4B205354524F4B4520485A20),
  (0x31D6, 0x434A4B205354524F4B4520484720),
  (0x31D7, 0x434A4B205354524F4B4520535A20),
  (0x31D8, 0x434A4B205354524F4B452053575A20),
  (0x31D9, 0x434A4B205354524F4B4520535420),
  (0x31DA, 0x434A4B205354524F4B4520534720),
  (0x31DB, 0x434A4B205354524F4B4520504420),
  (0x31DC, 0x434A4B205354524F4B4520505A20),
  (0x31DD, 0x434A4B205354524F4B4520544E20),
  (0x31DE, 0x434A4B205354524F4B4520535A5A20),
  (0x31DF, 0x434A4B205354524F4B452053574720)]
def names_178 : List (Nat × Nat) := [
  (0x31E0, 0x434A4B205354524F4B45204858574720),
  (0x31E1, 0x434A4B205354524F4B4520485A5A5A4720),
  (0x31E2, 0x434A4B205354524F4B4520504720),
  (0x31E3, 0x434A4B205354524F4B45205120),
  (0x31F0, 0x4B4154414B414E41204C455454455220534D414C4C204B5520),
  (0x31F1, 0x4B4154414B414E41204C455454455220534D414C4C20534920),
  (0x31F2, 0x4B4154414B414E41204C455454455220534D414C4C20535520),
  (0x31F3, 0x4B4154414B414E41204C455454455220534D414C4C20544F20),
  (0x31F4, 0x4B4154414B414E41204C455454455220534D414C4C204E5520),
  (0x31F5, 0x4B4154414B414E41204C455454455220534D414C4C20484120),
  (0x31F6, 0x4B4154414B414E41204C455454455220534D414C4C20484920),
  (0x31F7, 0x4B4154414B414E41204C455454455220534D414C4C20485520),
  (0x31F8, 0x4B4154414B414E41204C455454455220534D414C4C20484520),
  (0x31F9, 0x4B4154414B414E41204C455454455220534D414C4C20484F20),
  (0x31FA, 0x4B4154414B414E41204C455454455220534D414C4C204D5520),
  (0x31FB, 0x4B4154414B414E41204C455454455220534D414C4C20524120),
  (0x31FC, 0x4B4154414B414E41204C455454455220534D414C4C20524920),
  (0x31FD, 0x4B4154414B414E41204C455454455220534D414C4C20525520),
  (0x31FE, 0x4B4154414B414E41204C455454455220534D414C4C20524520),
  (0x31FF, 0x4B4154414B414E41204C455454455220534D414C4C20524F20),
  (0x3200, 0x504152454E54484553495A45442048414E47554C204B4959454F4B20),
  (0x3201, 0x504152454E54484553495A45442048414E47554C204E4945554E20),
  (0x3202, 0x504152454E54484553495A45442048414E47554C2054494B45555420),
  (0x3203, 0x504152454E54484553495A45442048414E47554C20524945554C20),
  (0x3204, 0x504152454E54484553495A45442048414E47554C204D4945554D20),
  (0x3205, 0x504152454E54484553495A45442048414E47554C20504945555020),
  (0x3206, 0x504152454E54484553495A45442048414E47554C2053494F5320),
  (0x3207, 0x504152454E54484553495A45442048414E47554C204945554E4720),
  (0x3208, 0x504152454E54484553495A45442048414E47554C20434945554320),
  (0x3209, 0x504152454E54484553495A45442048414E47554C204348494555434820),
  (0x320A, 0x504152454E54484553495A45442048414E47554C204B484945554B4820),
  (0x320B, 0x504152454E54484553495A45442048414E47554C205448494555544820),
  (0x320C, 0x504152454E54484553495A45442048414E47554C205048494555504820),
  (0x320D, 0x504152454E54484553495A45442048414E47554C20484945554820),
  (0x320E, 0x504152454E54484553495A45442048414E47554C204B4959454F4B204120),
  (0x320F, 0x504152454E54484553495A45442048414E47554C204E4945554E204120),
  (0x3210, 0x504152454E54484553495A45442048414E47554C2054494B455554204120),
  (0x3211, 0x504152454E54484553495A45442048414E47554C20524945554C204120),
  (0x3212, 0x504152454E54484553495A45442048414E47554C204D4945554D204120),
  (0x3213, 0x504152454E54484553495A45442048414E47554C205049455550204120),
  (0x3214, 0x504152454E54484553495A45442048414E47554C2053494F53204120),
  (0x3215, 0x504152454E54484553495A45442048414E47554C204945554E47204120),
  (0x3216, 0x504152454E54484553495A45442048414E47554C204349455543204120),
  (0x3217, 0x504152454E54484553495A45442048414E47554C2043484945554348204120),
  (0x3218, 0x504152454E54484553495A45442048414E47554C204B484945554B48204120),
  (0x3219, 0x504152454E54484553495A45442048414E47554C2054484945555448204120),
  (0x321A, 0x504152454E54484553495A45442048414E47554C2050484945555048204120),
  (0x321B, 0x504152454E54484553495A45442048414E47554C204849455548204120),
  (0x321C, 0x504152454E54484553495A45442048414E47554C204349455543205520),
  (0x321D, 0x504152454E54484553495A4544204B4F5245414E20434841524143544552204F4A454F4E20),
  (0x321E, 0x504152454E54484553495A4544204B4F5245414E20434841524143544552204F20485520),
  (0x3220, 0x504152454E54484553495A4544204944454F4752415048204F4E4520),
  (0x3221, 0x504152454E54484553495A4544204944454F47524150482054574F20),
  (0x3222, 0x504152454E54484553495A4544204944454F475241504820544852454520),
  (0x3223, 0x504152454E54484553495A4544204944454F475241504820464F555220),
  (0x3224, 0x504152454E54484553495A4544204944454F4752415048204649564520),
  (0x3225, 0x504152454E54484553495A4544204944454F47524150482053495820),
  (0x3226, 0x504152454E54484553495A4544204944454F475241504820534556454E20),
  (0x3227, 0x504152454E54484553495A4544204944454F475241504820454947485420),
  (0x3228, 0x504152454E54484553495A4544204944454F4752415048204E494E4520),
  (0x3229, 0x504152454E54484553495A4544204944454F47524150482054454E20),
  (0x322A, 0x504152454E54484553495A4544204944454F4752415048204D4F4F4E20),
  (0x322B, 0x504152454E54484553495A4544204944454F4752415048204649524520),
  (0x322C, 0x504152454E54484553495A4544204944454F475241504820574154455220)]
def names_179 : List (Nat × Nat) := [
  (0x322D, 0x504152454E54484553495A4544204944454F475241504820574F4F4420),
  (0x322E, 0x504152454E54484553495A4544204944454F4752415048204D4554414C20),
  (0x322F, 0x504152454E54484553495A4544204944454F475241504820454152544820),
  (0x3230, 0x504152454E54484553495A4544204944454F47524150482053554E20),
  (0x3231, 0x504152454E54484553495A4544204944454F47524150482053544F434B20),
  (0x3232, 0x504152454E54484553495A4544204944454F4752415048204841564520),
  (0x3233, 0x504152454E54484553495A4544204944454F475241504820534F434945545920),
  (0x3234, 0x504152454E54484553495A4544204944454F4752415048204E414D4520),
  (0x3235, 0x504152454E54484553495A4544204944454F4752415048205350454349414C20),
  (0x3236, 0x504152454E54484553495A4544204944454F47524150482046494E414E4349414C20),
  (0x3237, 0x504152454E54484553495A4544204944454F475241504820434F4E47524154554C4154494F4E20),
  (0x3238, 0x504152454E54484553495A4544204944454F4752415048204C41424F5220),
  (0x3239, 0x504152454E54484553495A4544204944454F475241504820524550524553454E5420),
  (0x323A, 0x504152454E54484553495A4544204944454F47524150482043414C4C20),
  (0x323B, 0x504152454E54484553495A4544204944454F475241504820535455445920),
  (0x323C, 0x504152454E54484553495A4544204944454F47524150482053555045525649534520),
  (0x323D, 0x504152454E54484553495A4544204944454F475241504820454E544552505249534520),
  (0x323E, 0x504152454E54484553495A4544204944454F4752415048205245534F5552434520),
  (0x323F, 0x504152454E54484553495A4544204944454F475241504820414C4C49414E434520),
  (0x3240, 0x504152454E54484553495A4544204944454F475241504820464553544956414C20),
  (0x3241, 0x504152454E54484553495A4544204944454F4752415048205245535420),
  (0x3242, 0x504152454E54484553495A4544204944454F47524150482053454C4620),
  (0x3243, 0x504152454E54484553495A4544204944454F475241504820524541434820),
  (0x3244, 0x434952434C4544204944454F4752415048205155455354494F4E20),
  (0x3245, 0x434952434C4544204944454F4752415048204B494E44455247415254454E20),
  (0x3246, 0x434952434C4544204944454F4752415048205343484F4F4C20),
  (0x3247, 0x434952434C4544204944454F4752415048204B4F544F20),
  (0x3248, 0x434952434C4544204E554D4245522054454E204F4E20424C41434B2053515541524520),
  (0x3249, 0x434952434C4544204E554D424552205457454E5459204F4E20424C41434B2053515541524520),
  (0x324A, 0x434952434C4544204E554D42455220544849525459204F4E20424C41434B2053515541524520),
  (0x324B, 0x434952434C4544204E554D42455220464F525459204F4E20424C41434B2053515541524520),
  (0x324C, 0x434952434C4544204E554D424552204649465459204F4E20424C41434B2053515541524520),
  (0x324D, 0x434952434C4544204E554D424552205349585459204F4E20424C41434B2053515541524520),
  (0x324E, 0x434952434C4544204E554D42455220534556454E5459204F4E20424C41434B2053515541524520),
  (0x324F, 0x434952434C4544204E554D42455220454947485459204F4E20424C41434B2053515541524520),
  (0x3250, 0x504152544E455253484950205349474E20),
  (0x3251, 0x434952434C4544204E554D424552205457454E5459204F4E4520),
  (0x3252, 0x434952434C4544204E554D424552205457454E54592054574F20),
  (0x3253, 0x434952434C4544204E554D424552205457454E545920544852454520),
  (0x3254, 0x434952434C4544204E554D424552205457454E545920464F555220),
  (0x3255, 0x434952434C4544204E554D424552205457454E5459204649564520),
  (0x3256, 0x434952434C4544204E554D424552205457454E54592053495820),
  (0x3257, 0x434952434C4544204E554D424552205457454E545920534556454E20),
  (0x3258, 0x434952434C4544204E554D424552205457454E545920454947485420),
  (0x3259, 0x434952434C4544204E554D424552205457454E5459204E494E4520),
  (0x325A, 0x434952434C4544204E554D4245522054484952545920),
  (0x325B, 0x434952434C4544204E554D42455220544849525459204F4E4520),
  (0x325C, 0x434952434C4544204E554D424552205448495254592054574F20),
  (0x325D, 0x434952434C4544204E554D4245522054484952545920544852454520),
  (0x325E, 0x434952434C4544204E554D4245522054484952545920464F555220),
  (0x325F, 0x434952434C4544204E554D42455220544849525459204649564520),
  (0x3260, 0x434952434C45442048414E47554C204B4959454F4B20),
  (0x3261, 0x434952434C45442048414E47554C204E4945554E20),
  (0x3262, 0x434952434C45442048414E47554C2054494B45555420),
  (0x3263, 0x434952434C45442048414E47554C20524945554C20),
  (0x3264, 0x434952434C45442048414E47554C204D4945554D20),
  (0x3265, 0x434952434C45442048414E47554C20504945555020),
  (0x3266, 0x434952434C45442048414E47554C2053494F5320),
  (0x3267, 0x434952434C45442048414E47554C204945554E4720),
  (0x3268, 0x434952434C45442048414E47554C20434945554320),
  (0x3269, 0x434952434C45442048414E47554C204348494555434820),
  (0x326A, 0x434952434C45442048414E47554C204B484945554B4820),
  (0x326B, 0x434952434C45442048414E47554C205448494555544820),
  (0x326C, 0x434952434C45442048414E47554C205048494555504820)]
def names_180 : List (Nat × Nat) := [
  (0x326D, 0x434952434C45442048414E47554C20484945554820),
  (0x326E, 0x434952434C45442048414E47554C204B4959454F4B204120),
  (0x326F, 0x434952434C45442048414E47554C204E4945554E204120),
  (0x3270, 0x434952434C45442048414E47554C2054494B455554204120),
  (0x3271, 0x434952434C45442048414E47554C20524945554C204120),
  (0x3272, 0x434952434C45442048414E47554C204D4945554D204120),
  (0x3273, 0x434952434C45442048414E47554C205049455550204120),
  (0x3274, 0x434952434C45442048414E47554C2053494F53204120),
  (0x3275, 0x434952434C45442048414E47554C204945554E47204120),
  (0x3276, 0x434952434C45442048414E47554C204349455543204120),
  (0x3277, 0x434952434C45442048414E47554C2043484945554348204120),
  (0x3278, 0x434952434C45442048414E47554C204B484945554B48204120),
  (0x3279, 0x434952434C45442048414E47554C2054484945555448204120),
  (0x327A, 0x434952434C45442048414E47554C2050484945555048204120),
  (0x327B, 0x434952434C45442048414E47554C204849455548204120),
  (0x327C, 0x434952434C4544204B4F5245414E20434841524143544552204348414D4B4F20),
  (0x327D, 0x434952434C4544204B4F5245414E20434841524143544552204A5545554920),
  (0x327E, 0x434952434C45442048414E47554C204945554E47205520),
  (0x327F, 0x4B4F5245414E205354414E444152442053594D424F4C20),
  (0x3280, 0x434952434C4544204944454F4752415048204F4E4520),
  (0x3281, 0x434952434C4544204944454F47524150482054574F20),
  (0x3282, 0x434952434C4544204944454F475241504820544852454520),
  (0x3283, 0x434952434C4544204944454F475241504820464F555220),
  (0x3284, 0x434952434C4544204944454F4752415048204649564520),
  (0x3285, 0x434952434C4544204944454F47524150482053495820),
  (0x3286, 0x434952434C4544204944454F475241504820534556454E20),
  (0x3287, 0x434952434C4544204944454F475241504820454947485420),
  (0x3288, 0x434952434C4544204944454F4752415048204E494E4520),
  (0x3289, 0x434952434C4544204944454F47524150482054454E20),
  (0x328A, 0x434952434C4544204944454F4752415048204D4F4F4E20),
  (0x328B, 0x434952434C4544204944454F4752415048204649524520),
  (0x328C, 0x434952434C4544204944454F475241504820574154455220),
  (0x328D, 0x434952434C4544204944454F475241504820574F4F4420),
  (0x328E, 0x434952434C4544204944454F4752415048204D4554414C20),
  (0x328F, 0x434952434C4544204944454F475241504820454152544820),
  (0x3290, 0x434952434C4544204944454F47524150482053554E20),
  (0x3291, 0x434952434C4544204944454F47524150482053544F434B20),
  (0x3292, 0x434952434C4544204944454F4752415048204841564520),
  (0x3293, 0x434952434C4544204944454F475241504820534F434945545920),
  (0x3294, 0x434952434C4544204944454F4752415048204E414D4520),
  (0x3295, 0x434952434C4544204944454F4752415048205350454349414C20),
  (0x3296, 0x434952434C4544204944454F47524150482046494E414E4349414C20),
  (0x3297, 0x434952434C4544204944454F475241504820434F4E47524154554C4154494F4E20),
  (0x3298, 0x434952434C4544204944454F4752415048204C41424F5220),
  (0x3299, 0x434952434C4544204944454F47524150482053454352455420),
  (0x329A, 0x434952434C4544204944454F4752415048204D414C4520),
  (0x329B, 0x434952434C4544204944454F47524150482046454D414C4520),
  (0x329C, 0x434952434C4544204944454F4752415048205355495441424C4520),
  (0x329D, 0x434952434C4544204944454F475241504820455843454C4C454E5420),
  (0x329E, 0x434952434C4544204944454F4752415048205052494E5420),
  (0x329F, 0x434952434C4544204944454F475241504820415454454E54494F4E20),
  (0x32A0, 0x434952434C4544204944454F4752415048204954454D20),
  (0x32A1, 0x434952434C4544204944454F4752415048205245535420),
  (0x32A2, 0x434952434C4544204944454F475241504820434F505920),
  (0x32A3, 0x434952434C4544204944454F475241504820434F525245435420),
  (0x32A4, 0x434952434C4544204944454F4752415048204849474820),
  (0x32A5, 0x434952434C4544204944454F47524150482043454E54524520),
  (0x32A6, 0x434952434C4544204944454F4752415048204C4F5720),
  (0x32A7, 0x434952434C4544204944454F4752415048204C45465420),
  (0x32A8, 0x434952434C4544204944454F475241504820524947485420),
  (0x32A9, 0x434952434C4544204944454F4752415048204D45444943494E4520),
  (0x32AA, 0x434952434C4544204944454F47524150482052454C4947494F4E20),
  (0x32AB, 0x434952434C4544204944454F475241504820535455445920),
  (0x32AC, 0x434952434C4544204944454F47524150482053555045525649534520)]
def names_181 : List (Nat × Nat) := [
  (0x32AD, 0x434952434C4544204944454F475241504820454E544552505249534520),
  (0x32AE, 0x434952434C4544204944454F4752415048205245534F5552434520),
  (0x32AF, 0x434952434C4544204944454F475241504820414C4C49414E434520),
  (0x32B0, 0x434952434C4544204944454F4752415048204E4947485420),
  (0x32B1, 0x434952434C4544204E554D424552205448495254592053495820),
  (0x32B2, 0x434952434C4544204E554D4245522054484952545920534556454E20),
  (0x32B3, 0x434952434C4544204E554D4245522054484952545920454947485420),
  (0x32B4, 0x434952434C4544204E554D42455220544849525459204E494E4520),
  (0x32B5, 0x434952434C4544204E554D42455220464F52545920),
  (0x32B6, 0x434952434C4544204E554D42455220464F525459204F4E4520),
  (0x32B7, 0x434952434C4544204E554D42455220464F5254592054574F20),
  (0x32B8, 0x434952434C4544204E554D42455220464F52545920544852454520),
  (0x32B9, 0x434952434C4544204E554D42455220464F52545920464F555220),
  (0x32BA, 0x434952434C4544204E554D42455220464F525459204649564520),
  (0x32BB, 0x434952434C4544204E554D42455220464F5254592053495820),
  (0x32BC, 0x434952434C4544204E554D42455220464F52545920534556454E20),
  (0x32BD, 0x434952434C4544204E554D42455220464F52545920454947485420),
  (0x32BE, 0x434952434C4544204E554D42455220464F525459204E494E4520),
  (0x32BF, 0x434952434C4544204E554D42455220464946545920),
  (0x32C0, 0x4944454F475241504849432054454C4547524150482053594D424F4C20464F52204A414E5541525920),
  (0x32C1, 0x4944454F475241504849432054454C4547524150482053594D424F4C20464F5220464542525541525920),
  (0x32C2, 0x4944454F475241504849432054454C4547524150482053594D424F4C20464F52204D4152434820),
  (0x32C3, 0x4944454F475241504849432054454C4547524150482053594D424F4C20464F5220415052494C20),
  (0x32C4, 0x4944454F475241504849432054454C4547524150482053594D424F4C20464F52204D415920),
  (0x32C5, 0x4944454F475241504849432054454C4547524150482053594D424F4C20464F52204A554E4520),
  (0x32C6, 0x4944454F475241504849432054454C4547524150482053594D424F4C20464F52204A554C5920),
  (0x32C7, 0x4944454F475241504849432054454C4547524150482053594D424F4C20464F522041554755535420),
  (0x32C8, 0x4944454F475241504849432054454C4547524150482053594D424F4C20464F522053455054454D42455220),
  (0x32C9, 0x4944454F475241504849432054454C4547524150482053594D424F4C20464F52204F43544F42455220),
  (0x32CA, 0x4944454F475241504849432054454C4547524150482053594D424F4C20464F52204E4F56454D42455220),
  (0x32CB, 0x4944454F475241504849432054454C4547524150482053594D424F4C20464F5220444543454D42455220),
  (0x32CC, 0x53515541524520484720),
  (0x32CD, 0x5351554152452045524720),
  (0x32CE, 0x53515541524520455620),
  (0x32CF, 0x4C494D49544544204C494142494C495459205349474E20),
  (0x32D0, 0x434952434C4544204B4154414B414E41204120),
  (0x32D1, 0x434952434C4544204B4154414B414E41204920),
  (0x32D2, 0x434952434C4544204B4154414B414E41205520),
  (0x32D3, 0x434952434C4544204B4154414B414E41204520),
  (0x32D4, 0x434952434C4544204B4154414B414E41204F20),
  (0x32D5, 0x434952434C4544204B4154414B414E41204B4120),
  (0x32D6, 0x434952434C4544204B4154414B414E41204B4920),
  (0x32D7, 0x434952434C4544204B4154414B414E41204B5520),
  (0x32D8, 0x434952434C4544204B4154414B414E41204B4520),
  (0x32D9, 0x434952434C4544204B4154414B414E41204B4F20),
  (0x32DA, 0x434952434C4544204B4154414B414E4120534120),
  (0x32DB, 0x434952434C4544204B4154414B414E4120534920),
  (0x32DC, 0x434952434C4544204B4154414B414E4120535520),
  (0x32DD, 0x434952434C4544204B4154414B414E4120534520),
  (0x32DE, 0x434952434C4544204B4154414B414E4120534F20),
  (0x32DF, 0x434952434C4544204B4154414B414E4120544120),
  (0x32E0, 0x434952434C4544204B4154414B414E4120544920),
  (0x32E1, 0x434952434C4544204B4154414B414E4120545520),
  (0x32E2, 0x434952434C4544204B4154414B414E4120544520),
  (0x32E3, 0x434952434C4544204B4154414B414E4120544F20),
  (0x32E4, 0x434952434C4544204B4154414B414E41204E4120),
  (0x32E5, 0x434952434C4544204B4154414B414E41204E4920),
  (0x32E6, 0x434952434C4544204B4154414B414E41204E5520),
  (0x32E7, 0x434952434C4544204B4154414B414E41204E4520),
  (0x32E8, 0x434952434C4544204B4154414B414E41204E4F20),
  (0x32E9, 0x434952434C4544204B4154414B414E4120484120),
  (0x32EA, 0x434952434C4544204B4154414B414E4120484920),
  (0x32EB, 0x434952434C4544204B4154414B414E4120485520),
  (0x32EC, 0x434952434C4544204B4154414B414E4120484520)]
def names_182 : List (Nat × Nat) := [
  (0x32ED, 0x434952434C4544204B4154414B414E4120484F20),
  (0x32EE, 0x434952434C4544204B4154414B414E41204D4120),
  (0x32EF, 0x434952434C4544204B4154414B414E41204D4920),
  (0x32F0, 0x434952434C4544204B4154414B414E41204D5520),
  (0x32F1, 0x434952434C4544204B4154414B414E41204D4520),
  (0x32F2, 0x434952434C4544204B4154414B414E41204D4F20),
  (0x32F3, 0x434952434C4544204B4154414B414E4120594120),
  (0x32F4, 0x434952434C4544204B4154414B414E4120595520),
  (0x32F5, 0x434952434C4544204B4154414B414E4120594F20),
  (0x32F6, 0x434952434C4544204B4154414B414E4120524120),
  (0x32F7, 0x434952434C4544204B4154414B414E4120524920),
  (0x32F8, 0x434952434C4544204B4154414B414E4120525520),
  (0x32F9, 0x434952434C4544204B4154414B414E4120524520),
  (0x32FA, 0x434952434C4544204B4154414B414E4120524F20),
  (0x32FB, 0x434952434C4544204B4154414B414E4120574120),
  (0x32FC, 0x434952434C4544204B4154414B414E4120574920),
  (0x32FD, 0x434952434C4544204B4154414B414E4120574520),
  (0x32FE, 0x434952434C4544204B4154414B414E4120574F20),
  (0x3300, 0x5351554152452041504141544F20),
  (0x3301, 0x5351554152452041525548554120),
  (0x3302, 0x53515541524520414E50454120),
  (0x3303, 0x535155415245204141525520),
  (0x3304, 0x53515541524520494E494E475520),
  (0x3305, 0x53515541524520494E544920),
  (0x3306, 0x53515541524520554F4E20),
  (0x3307, 0x535155415245204553554B5555444F20),
  (0x3308, 0x5351554152452045454B414120),
  (0x3309, 0x535155415245204F4E535520),
  (0x330A, 0x535155415245204F4F4D5520),
  (0x330B, 0x535155415245204B4149524920),
  (0x330C, 0x535155415245204B41524154544F20),
  (0x330D, 0x535155415245204B41524F52494920),
  (0x330E, 0x535155415245204741524F4E20),
  (0x330F, 0x5351554152452047414E4D4120),
  (0x3310, 0x535155415245204749474120),
  (0x3311, 0x5351554152452047494E494920),
  (0x3312, 0x535155415245204B595552494920),
  (0x3313, 0x535155415245204749525544414120),
  (0x3314, 0x535155415245204B49524F20),
  (0x3315, 0x535155415245204B49524F475552414D5520),
  (0x3316, 0x535155415245204B49524F4D4545544F525520),
  (0x3317, 0x535155415245204B49524F574154544F20),
  (0x3318, 0x53515541524520475552414D5520),
  (0x3319, 0x53515541524520475552414D55544F4E20),
  (0x331A, 0x535155415245204B5552555A4549524F20),
  (0x331B, 0x535155415245204B55524F4F4E4520),
  (0x331C, 0x535155415245204B4545535520),
  (0x331D, 0x535155415245204B4F52554E4120),
  (0x331E, 0x535155415245204B4F4F504F20),
  (0x331F, 0x535155415245205341494B55525520),
  (0x3320, 0x5351554152452053414E5449494D5520),
  (0x3321, 0x53515541524520534952494E475520),
  (0x3322, 0x5351554152452053454E544920),
  (0x3323, 0x5351554152452053454E544F20),
  (0x3324, 0x53515541524520444141535520),
  (0x3325, 0x535155415245204445534920),
  (0x3326, 0x53515541524520444F525520),
  (0x3327, 0x53515541524520544F4E20),
  (0x3328, 0x535155415245204E414E4F20),
  (0x3329, 0x535155415245204E4F54544F20),
  (0x332A, 0x53515541524520484149545520),
  (0x332B, 0x5351554152452050414153454E544F20),
  (0x332C, 0x53515541524520504141545520),
  (0x332D, 0x535155415245204241415245525520)]
def names_183 : List (Nat × Nat) := [
  (0x332E, 0x535155415245205049415355544F525520),
  (0x332F, 0x5351554152452050494B55525520),
  (0x3330, 0x5351554152452050494B4F20),
  (0x3331, 0x535155415245204249525520),
  (0x3332, 0x53515541524520485541524144444F20),
  (0x3333, 0x5351554152452048554949544F20),
  (0x3334, 0x53515541524520425553535945525520),
  (0x3335, 0x53515541524520485552414E20),
  (0x3336, 0x5351554152452048454B55544141525520),
  (0x3337, 0x535155415245205045534F20),
  (0x3338, 0x5351554152452050454E49484920),
  (0x3339, 0x5351554152452048455255545520),
  (0x333A, 0x5351554152452050454E535520),
  (0x333B, 0x535155415245205045455A4920),
  (0x333C, 0x53515541524520424545544120),
  (0x333D, 0x53515541524520504F494E544F20),
  (0x333E, 0x53515541524520424F5255544F20),
  (0x333F, 0x53515541524520484F4E20),
  (0x3340, 0x53515541524520504F4E444F20),
  (0x3341, 0x53515541524520484F4F525520),
  (0x3342, 0x53515541524520484F4F4E20),
  (0x3343, 0x535155415245204D41494B55524F20),
  (0x3344, 0x535155415245204D4149525520),
  (0x3345, 0x535155415245204D4148484120),
  (0x3346, 0x535155415245204D4152554B5520),
  (0x3347, 0x535155415245204D414E53594F4E20),
  (0x3348, 0x535155415245204D494B55524F4E20),
  (0x3349, 0x535155415245204D49524920),
  (0x334A, 0x535155415245204D495249424141525520),
  (0x334B, 0x535155415245204D45474120),
  (0x334C, 0x535155415245204D454741544F4E20),
  (0x334D, 0x535155415245204D4545544F525520),
  (0x334E, 0x53515541524520594141444F20),
  (0x334F, 0x53515541524520594141525520),
  (0x3350, 0x535155415245205955414E20),
  (0x3351, 0x53515541524520524954544F525520),
  (0x3352, 0x535155415245205249524120),
  (0x3353, 0x53515541524520525550494920),
  (0x3354, 0x535155415245205255554255525520),
  (0x3355, 0x5351554152452052454D5520),
  (0x3356, 0x5351554152452052454E544F47454E20),
  (0x3357, 0x53515541524520574154544F20),
  (0x3358, 0x4944454F475241504849432054454C4547524150482053594D424F4C20464F5220484F5552205A45524F20),
  (0x3359, 0x4944454F475241504849432054454C4547524150482053594D424F4C20464F5220484F5552204F4E4520),
  (0x335A, 0x4944454F475241504849432054454C4547524150482053594D424F4C20464F5220484F55522054574F20),
  (0x335B, 0x4944454F475241504849432054454C4547524150482053594D424F4C20464F5220484F555220544852454520),
  (0x335C, 0x4944454F475241504849432054454C4547524150482053594D424F4C20464F5220484F555220464F555220),
  (0x335D, 0x4944454F475241504849432054454C4547524150482053594D424F4C20464F5220484F5552204649564520),
  (0x335E, 0x4944454F475241504849432054454C4547524150482053594D424F4C20464F5220484F55522053495820),
  (0x335F, 0x4944454F475241504849432054454C4547524150482053594D424F4C20464F5220484F555220534556454E20),
  (0x3360, 0x4944454F475241504849432054454C4547524150482053594D424F4C20464F5220484F555220454947485420),
  (0x3361, 0x4944454F475241504849432054454C4547524150482053594D424F4C20464F5220484F5552204E494E4520),
  (0x3362, 0x4944454F475241504849432054454C4547524150482053594D424F4C20464F5220484F55522054454E20),
  (0x3363, 0x4944454F475241504849432054454C4547524150482053594D424F4C20464F5220484F555220454C4556454E20),
  (0x3364, 0x4944454F475241504849432054454C4547524150482053594D424F4C20464F5220484F5552205457454C564520),
  (0x3365, 0x4944454F475241504849432054454C4547524150482053594D424F4C20464F5220484F555220544849525445454E20),
  (0x3366, 0x4944454F475241504849432054454C4547524150482053594D424F4C20464F5220484F555220464F55525445454E20),
  (0x3367, 0x4944454F475241504849432054454C4547524150482053594D424F4C20464F5220484F5552204649465445454E20),
  (0x3368, 0x4944454F475241504849432054454C4547524150482053594D424F4C20464F5220484F5552205349585445454E20),
  (0x3369, 0x4944454F475241504849432054454C4547524150482053594D424F4C20464F5220484F555220534556454E5445454E20),
  (0x336A, 0x4944454F475241504849432054454C4547524150482053594D424F4C20464F5220484F555220454947485445454E20),
  (0x336B, 0x4944454F475241504849432054454C4547524150482053594D424F4C20464F5220484F5552204E494E455445454E20),
  (0x336C, 0x4944454F475241504849432054454C4547524150482053594D424F4C20464F5220484F5552205457454E545920),
  (0x336D, 0x4944454F475241504849432054454C4547524150482053594D424F4C20464F5220484F5552205457454E54592D4F4E4520)]
def names_184 : List (Nat × Nat) := [
  (0x336E, 0x4944454F475241504849432054454C4547524150482053594D424F4C20464F5220484F5552205457454E54592D54574F20),
  (0x336F, 0x4944454F475241504849432054454C4547524150482053594D424F4C20464F5220484F5552205457454E54592D544852454520),
  (0x3370, 0x4944454F475241504849432054454C4547524150482053594D424F4C20464F5220484F5552205457454E54592D464F555220),
  (0x3371, 0x5351554152452048504120),
  (0x3372, 0x53515541524520444120),
  (0x3373, 0x53515541524520415520),
  (0x3374, 0x5351554152452042415220),
  (0x3375, 0x535155415245204F5620),
  (0x3376, 0x53515541524520504320),
  (0x3377, 0x53515541524520444D20),
  (0x3378, 0x53515541524520444D205351554152454420),
  (0x3379, 0x53515541524520444D20435542454420),
  (0x337A, 0x53515541524520495520),
  (0x337B, 0x53515541524520455241204E414D452048454953454920),
  (0x337C, 0x53515541524520455241204E414D452053594F55574120),
  (0x337D, 0x53515541524520455241204E414D452054414953594F5520),
  (0x337E, 0x53515541524520455241204E414D45204D45495A4920),
  (0x337F, 0x53515541524520434F52504F524154494F4E20),
  (0x3380, 0x53515541524520504120414D505320),
  (0x3381, 0x535155415245204E4120),
  (0x3382, 0x535155415245204D55204120),
  (0x3383, 0x535155415245204D4120),
  (0x3384, 0x535155415245204B4120),
  (0x3385, 0x535155415245204B4220),
  (0x3386, 0x535155415245204D4220),
  (0x3387, 0x53515541524520474220),
  (0x3388, 0x5351554152452043414C20),
  (0x3389, 0x535155415245204B43414C20),
  (0x338A, 0x53515541524520504620),
  (0x338B, 0x535155415245204E4620),
  (0x338C, 0x535155415245204D55204620),
  (0x338D, 0x535155415245204D55204720),
  (0x338E, 0x535155415245204D4720),
  (0x338F, 0x535155415245204B4720),
  (0x3390, 0x53515541524520485A20),
  (0x3391, 0x535155415245204B485A20),
  (0x3392, 0x535155415245204D485A20),
  (0x3393, 0x5351554152452047485A20),
  (0x3394, 0x5351554152452054485A20),
  (0x3395, 0x535155415245204D55204C20),
  (0x3396, 0x535155415245204D4C20),
  (0x3397, 0x53515541524520444C20),
  (0x3398, 0x535155415245204B4C20),
  (0x3399, 0x53515541524520464D20),
  (0x339A, 0x535155415245204E4D20),
  (0x339B, 0x535155415245204D55204D20),
  (0x339C, 0x535155415245204D4D20),
  (0x339D, 0x53515541524520434D20),
  (0x339E, 0x535155415245204B4D20),
  (0x339F, 0x535155415245204D4D205351554152454420),
  (0x33A0, 0x53515541524520434D205351554152454420),
  (0x33A1, 0x535155415245204D205351554152454420),
  (0x33A2, 0x535155415245204B4D205351554152454420),
  (0x33A3, 0x535155415245204D4D20435542454420),
  (0x33A4, 0x53515541524520434D20435542454420),
  (0x33A5, 0x535155415245204D20435542454420),
  (0x33A6, 0x535155415245204B4D20435542454420),
  (0x33A7, 0x535155415245204D204F564552205320),
  (0x33A8, 0x535155415245204D204F5645522053205351554152454420),
  (0x33A9, 0x53515541524520504120),
  (0x33AA, 0x535155415245204B504120),
  (0x33AB, 0x535155415245204D504120),
  (0x33AC, 0x5351554152452047504120),
  (0x33AD, 0x5351554152452052414420)]
def names_185 : List (Nat × Nat) := [
  (0x33AE, 0x53515541524520524144204F564552205320),
  (0x33AF, 0x53515541524520524144204F5645522053205351554152454420),
  (0x33B0, 0x53515541524520505320),
  (0x33B1, 0x535155415245204E5320),
  (0x33B2, 0x535155415245204D55205320),
  (0x33B3, 0x535155415245204D5320),
  (0x33B4, 0x53515541524520505620),
  (0x33B5, 0x535155415245204E5620),
  (0x33B6, 0x535155415245204D55205620),
  (0x33B7, 0x535155415245204D5620),
  (0x33B8, 0x535155415245204B5620),
  (0x33B9, 0x535155415245204D56204D45474120),
  (0x33BA, 0x53515541524520505720),
  (0x33BB, 0x535155415245204E5720),
  (0x33BC, 0x535155415245204D55205720),
  (0x33BD, 0x535155415245204D5720),
  (0x33BE, 0x535155415245204B5720),
  (0x33BF, 0x535155415245204D57204D45474120),
  (0x33C0, 0x535155415245204B204F484D20),
  (0x33C1, 0x535155415245204D204F484D20),
  (0x33C2, 0x53515541524520414D20),
  (0x33C3, 0x53515541524520425120),
  (0x33C4, 0x53515541524520434320),
  (0x33C5, 0x53515541524520434420),
  (0x33C6, 0x5351554152452043204F564552204B4720),
  (0x33C7, 0x53515541524520434F20),
  (0x33C8, 0x53515541524520444220),
  (0x33C9, 0x53515541524520475920),
  (0x33CA, 0x53515541524520484120),
  (0x33CB, 0x53515541524520485020),
  (0x33CC, 0x53515541524520494E20),
  (0x33CD, 0x535155415245204B4B20),
  (0x33CE, 0x535155415245204B4D204341504954414C20),
  (0x33CF, 0x535155415245204B5420),
  (0x33D0, 0x535155415245204C4D20),
  (0x33D1, 0x535155415245204C4E20),
  (0x33D2, 0x535155415245204C4F4720),
  (0x33D3, 0x535155415245204C5820),
  (0x33D4, 0x535155415245204D4220534D414C4C20),
  (0x33D5, 0x535155415245204D494C20),
  (0x33D6, 0x535155415245204D4F4C20),
  (0x33D7, 0x53515541524520504820),
  (0x33D8, 0x53515541524520504D20),
  (0x33D9, 0x5351554152452050504D20),
  (0x33DA, 0x53515541524520505220),
  (0x33DB, 0x53515541524520535220),
  (0x33DC, 0x53515541524520535620),
  (0x33DD, 0x53515541524520574220),
  (0x33DE, 0x5351554152452056204F564552204D20),
  (0x33DF, 0x5351554152452041204F564552204D20),
  (0x33E0, 0x4944454F475241504849432054454C4547524150482053594D424F4C20464F5220444159204F4E4520),
  (0x33E1, 0x4944454F475241504849432054454C4547524150482053594D424F4C20464F52204441592054574F20),
  (0x33E2, 0x4944454F475241504849432054454C4547524150482053594D424F4C20464F522044415920544852454520),
  (0x33E3, 0x4944454F475241504849432054454C4547524150482053594D424F4C20464F522044415920464F555220),
  (0x33E4, 0x4944454F475241504849432054454C4547524150482053594D424F4C20464F5220444159204649564520),
  (0x33E5, 0x4944454F475241504849432054454C4547524150482053594D424F4C20464F52204441592053495820),
  (0x33E6, 0x4944454F475241504849432054454C4547524150482053594D424F4C20464F522044415920534556454E20),
  (0x33E7, 0x4944454F475241504849432054454C4547524150482053594D424F4C20464F522044415920454947485420),
  (0x33E8, 0x4944454F475241504849432054454C4547524150482053594D424F4C20464F5220444159204E494E4520),
  (0x33E9, 0x4944454F475241504849432054454C4547524150482053594D424F4C20464F52204441592054454E20),
  (0x33EA, 0x4944454F475241504849432054454C4547524150482053594D424F4C20464F522044415920454C4556454E20),
  (0x33EB, 0x4944454F475241504849432054454C4547524150482053594D424F4C20464F5220444159205457454C564520),
  (0x33EC, 0x4944454F475241504849432054454C4547524150482053594D424F4C20464F522044415920544849525445454E20),
  (0x33ED, 0x4944454F475241504849432054454C4547524150482053594D424F4C20464F522044415920464F55525445454E20)]
def names_186 : List (Nat × Nat) := [
  (0x33EE, 0x4944454F475241504849432054454C4547524150482053594D424F4C20464F5220444159204649465445454E20),
  (0x33EF, 0x4944454F475241504849432054454C4547524150482053594D424F4C20464F5220444159205349585445454E20),
  (0x33F0, 0x4944454F475241504849432054454C4547524150482053594D424F4C20464F522044415920534556454E5445454E20),
  (0x33F1, 0x4944454F475241504849432054454C4547524150482053594D424F4C20464F522044415920454947485445454E20),
  (0x33F2, 0x4944454F475241504849432054454C4547524150482053594D424F4C20464F5220444159204E494E455445454E20),
  (0x33F3, 0x4944454F475241504849432054454C4547524150482053594D424F4C20464F5220444159205457454E545920),
  (0x33F4, 0x4944454F475241504849432054454C4547524150482053594D424F4C20464F5220444159205457454E54592D4F4E4520),
  (0x33F5, 0x4944454F475241504849432054454C4547524150482053594D424F4C20464F5220444159205457454E54592D54574F20),
  (0x33F6, 0x4944454F475241504849432054454C4547524150482053594D424F4C20464F5220444159205457454E54592D544852454520),
  (0x33F7, 0x4944454F475241504849432054454C4547524150482053594D424F4C20464F5220444159205457454E54592D464F555220),
  (0x33F8, 0x4944454F475241504849432054454C4547524150482053594D424F4C20464F5220444159205457454E54592D4649564520),
  (0x33F9, 0x4944454F475241504849432054454C4547524150482053594D424F4C20464F5220444159205457454E54592D53495820),
  (0x33FA, 0x4944454F475241504849432054454C4547524150482053594D424F4C20464F5220444159205457454E54592D534556454E20),
  (0x33FB, 0x4944454F475241504849432054454C4547524150482053594D424F4C20464F5220444159205457454E54592D454947485420),
  (0x33FC, 0x4944454F475241504849432054454C4547524150482053594D424F4C20464F5220444159205457454E54592D4E494E4520),
  (0x33FD, 0x4944454F475241504849432054454C4547524150482053594D424F4C20464F52204441592054484952545920),
  (0x33FE, 0x4944454F475241504849432054454C4547524150482053594D424F4C20464F5220444159205448495254592D4F4E4520),
  (0x33FF, 0x5351554152452047414C20),
  (0x4DC0, 0x484558414752414D20464F52205448452043524541544956452048454156454E20),
  (0x4DC1, 0x484558414752414D20464F52205448452052454345505449564520454152544820),
  (0x4DC2, 0x484558414752414D20464F5220444946464943554C54592041542054484520424547494E4E494E4720),
  (0x4DC3, 0x484558414752414D20464F5220594F55544846554C20464F4C4C5920),
  (0x4DC4, 0x484558414752414D20464F522057414954494E4720),
  (0x4DC5, 0x484558414752414D20464F5220434F4E464C49435420),
  (0x4DC6, 0x484558414752414D20464F52205448452041524D5920),
  (0x4DC7, 0x484558414752414D20464F5220484F4C44494E4720544F47455448455220),
  (0x4DC8, 0x484558414752414D20464F5220534D414C4C2054414D494E4720),
  (0x4DC9, 0x484558414752414D20464F52205452454144494E4720),
  (0x4DCA, 0x484558414752414D20464F5220504541434520),
  (0x4DCB, 0x484558414752414D20464F52205354414E445354494C4C20),
  (0x4DCC, 0x484558414752414D20464F522046454C4C4F575348495020),
  (0x4DCD, 0x484558414752414D20464F5220475245415420504F5353455353494F4E20),
  (0x4DCE, 0x484558414752414D20464F52204D4F444553545920),
  (0x4DCF, 0x484558414752414D20464F5220454E544855534941534D20),
  (0x4DD0, 0x484558414752414D20464F5220464F4C4C4F57494E4720),
  (0x4DD1, 0x484558414752414D20464F5220574F524B204F4E20544845204445434159454420),
  (0x4DD2, 0x484558414752414D20464F5220415050524F41434820),
  (0x4DD3, 0x484558414752414D20464F5220434F4E54454D504C4154494F4E20),
  (0x4DD4, 0x484558414752414D20464F5220424954494E47205448524F55474820),
  (0x4DD5, 0x484558414752414D20464F5220475241434520),
  (0x4DD6, 0x484558414752414D20464F522053504C495454494E4720415041525420),
  (0x4DD7, 0x484558414752414D20464F522052455455524E20),
  (0x4DD8, 0x484558414752414D20464F5220494E4E4F43454E434520),
  (0x4DD9, 0x484558414752414D20464F522047524541542054414D494E4720),
  (0x4DDA, 0x484558414752414D20464F52204D4F55544820434F524E45525320),
  (0x4DDB, 0x484558414752414D20464F5220475245415420505245504F4E444552414E434520),
  (0x4DDC, 0x484558414752414D20464F522054484520414259534D414C20574154455220),
  (0x4DDD, 0x484558414752414D20464F522054484520434C494E47494E47204649524520),
  (0x4DDE, 0x484558414752414D20464F5220494E464C55454E434520),
  (0x4DDF, 0x484558414752414D20464F52204455524154494F4E20),
  (0x4DE0, 0x484558414752414D20464F52205245545245415420),
  (0x4DE1, 0x484558414752414D20464F5220475245415420504F57455220),
  (0x4DE2, 0x484558414752414D20464F522050524F475245535320),
  (0x4DE3, 0x484558414752414D20464F52204441524B454E494E47204F4620544845204C4947485420),
  (0x4DE4, 0x484558414752414D20464F52205448452046414D494C5920),
  (0x4DE5, 0x484558414752414D20464F52204F50504F534954494F4E20),
  (0x4DE6, 0x484558414752414D20464F52204F42535452554354494F4E20),
  (0x4DE7, 0x484558414752414D20464F522044454C49564552414E434520),
  (0x4DE8, 0x484558414752414D20464F5220444543524541534520),
  (0x4DE9, 0x484558414752414D20464F5220494E43524541534520),
  (0x4DEA, 0x484558414752414D20464F5220425245414B5448524F55474820),
  (0x4DEB, 0x484558414752414D20464F5220434F4D494E4720544F204D45455420),
  (0x4DEC, 0x484558414752414D20464F5220474154484552494E4720544F47455448455220),
  (0x4DED, 0x484558414752414D20464F522050555348494E472055505741524420)]
def names_187 : List (Nat × Nat) := [
  (0x4DEE, 0x484558414752414D20464F52204F505052455353494F4E20),
  (0x4DEF, 0x484558414752414D20464F52205448452057454C4C20),
  (0x4DF0, 0x484558414752414D20464F52205245564F4C5554494F4E20),
  (0x4DF1, 0x484558414752414D20464F5220544845204341554C44524F4E20),
  (0x4DF2, 0x484558414752414D20464F52205448452041524F5553494E47205448554E44455220),
  (0x4DF3, 0x484558414752414D20464F5220544845204B454550494E47205354494C4C204D4F554E5441494E20),
  (0x4DF4, 0x484558414752414D20464F5220444556454C4F504D454E5420),
  (0x4DF5, 0x484558414752414D20464F5220544845204D41525259494E47204D414944454E20),
  (0x4DF6, 0x484558414752414D20464F52204142554E44414E434520),
  (0x4DF7, 0x484558414752414D20464F52205448452057414E444552455220),
  (0x4DF8, 0x484558414752414D20464F52205448452047454E544C452057494E4420),
  (0x4DF9, 0x484558414752414D20464F5220544845204A4F594F5553204C414B4520),
  (0x4DFA, 0x484558414752414D20464F522044495350455253494F4E20),
  (0x4DFB, 0x484558414752414D20464F52204C494D49544154494F4E20),
  (0x4DFC, 0x484558414752414D20464F5220494E4E455220545255544820),
  (0x4DFD, 0x484558414752414D20464F5220534D414C4C20505245504F4E444552414E434520),
  (0x4DFE, 0x484558414752414D20464F5220414654455220434F4D504C4554494F4E20),
  (0x4DFF, 0x484558414752414D20464F52204245464F524520434F4D504C4554494F4E20),
  (0xA000, 0x59492053594C4C41424C4520495420),
  (0xA001, 0x59492053594C4C41424C4520495820),
  (0xA002, 0x59492053594C4C41424C45204920),
  (0xA003, 0x59492053594C4C41424C4520495020),
  (0xA004, 0x59492053594C4C41424C452049455420),
  (0xA005, 0x59492053594C4C41424C452049455820),
  (0xA006, 0x59492053594C4C41424C4520494520),
  (0xA007, 0x59492053594C4C41424C452049455020),
  (0xA008, 0x59492053594C4C41424C4520415420),
  (0xA009, 0x59492053594C4C41424C4520415820),
  (0xA00A, 0x59492053594C4C41424C45204120),
  (0xA00B, 0x59492053594C4C41424C4520415020),
  (0xA00C, 0x59492053594C4C41424C4520554F5820),
  (0xA00D, 0x59492053594C4C41424C4520554F20),
  (0xA00E, 0x59492053594C4C41424C4520554F5020),
  (0xA00F, 0x59492053594C4C41424C45204F5420),
  (0xA010, 0x59492053594C4C41424C45204F5820),
  (0xA011, 0x59492053594C4C41424C45204F20),
  (0xA012, 0x59492053594C4C41424C45204F5020),
  (0xA013, 0x59492053594C4C41424C4520455820),
  (0xA014, 0x59492053594C4C41424C45204520),
  (0xA015, 0x59492053594C4C41424C4520575520),
  (0xA016, 0x59492053594C4C41424C452042495420),
  (0xA017, 0x59492053594C4C41424C452042495820),
  (0xA018, 0x59492053594C4C41424C4520424920),
  (0xA019, 0x59492053594C4C41424C452042495020),
  (0xA01A, 0x59492053594C4C41424C45204249455420),
  (0xA01B, 0x59492053594C4C41424C45204249455820),
  (0xA01C, 0x59492053594C4C41424C452042494520),
  (0xA01D, 0x59492053594C4C41424C45204249455020),
  (0xA01E, 0x59492053594C4C41424C452042415420),
  (0xA01F, 0x59492053594C4C41424C452042415820),
  (0xA020, 0x59492053594C4C41424C4520424120),
  (0xA021, 0x59492053594C4C41424C452042415020),
  (0xA022, 0x59492053594C4C41424C452042554F5820),
  (0xA023, 0x59492053594C4C41424C452042554F20),
  (0xA024, 0x59492053594C4C41424C452042554F5020),
  (0xA025, 0x59492053594C4C41424C4520424F5420),
  (0xA026, 0x59492053594C4C41424C4520424F5820),
  (0xA027, 0x59492053594C4C41424C4520424F20),
  (0xA028, 0x59492053594C4C41424C4520424F5020),
  (0xA029, 0x59492053594C4C41424C452042455820),
  (0xA02A, 0x59492053594C4C41424C4520424520),
  (0xA02B, 0x59492053594C4C41424C452042455020),
  (0xA02C, 0x59492053594C4C41424C452042555420),
  (0xA02D, 0x59492053594C4C41424C452042555820)]
def names_188 : List (Nat × Nat) := [
  (0xA02E, 0x59492053594C4C41424C4520425520),
  (0xA02F, 0x59492053594C4C41424C452042555020),
  (0xA030, 0x59492053594C4C41424C45204255525820),
  (0xA031, 0x59492053594C4C41424C452042555220),
  (0xA032, 0x59492053594C4C41424C452042595420),
  (0xA033, 0x59492053594C4C41424C452042595820),
  (0xA034, 0x59492053594C4C41424C4520425920),
  (0xA035, 0x59492053594C4C41424C452042595020),
  (0xA036, 0x59492053594C4C41424C45204259525820),
  (0xA037, 0x59492053594C4C41424C452042595220),
  (0xA038, 0x59492053594C4C41424C452050495420),
  (0xA039, 0x59492053594C4C41424C452050495820),
  (0xA03A, 0x59492053594C4C41424C4520504920),
  (0xA03B, 0x59492053594C4C41424C452050495020),
  (0xA03C, 0x59492053594C4C41424C45205049455820),
  (0xA03D, 0x59492053594C4C41424C452050494520),
  (0xA03E, 0x59492053594C4C41424C45205049455020),
  (0xA03F, 0x59492053594C4C41424C452050415420),
  (0xA040, 0x59492053594C4C41424C452050415820),
  (0xA041, 0x59492053594C4C41424C4520504120),
  (0xA042, 0x59492053594C4C41424C452050415020),
  (0xA043, 0x59492053594C4C41424C452050554F5820),
  (0xA044, 0x59492053594C4C41424C452050554F20),
  (0xA045, 0x59492053594C4C41424C452050554F5020),
  (0xA046, 0x59492053594C4C41424C4520504F5420),
  (0xA047, 0x59492053594C4C41424C4520504F5820),
  (0xA048, 0x59492053594C4C41424C4520504F20),
  (0xA049, 0x59492053594C4C41424C4520504F5020),
  (0xA04A, 0x59492053594C4C41424C452050555420),
  (0xA04B, 0x59492053594C4C41424C452050555820),
  (0xA04C, 0x59492053594C4C41424C4520505520),
  (0xA04D, 0x59492053594C4C41424C452050555020),
  (0xA04E, 0x59492053594C4C41424C45205055525820),
  (0xA04F, 0x59492053594C4C41424C452050555220),
  (0xA050, 0x59492053594C4C41424C452050595420),
  (0xA051, 0x59492053594C4C41424C452050595820),
  (0xA052, 0x59492053594C4C41424C4520505920),
  (0xA053, 0x59492053594C4C41424C452050595020),
  (0xA054, 0x59492053594C4C41424C45205059525820),
  (0xA055, 0x59492053594C4C41424C452050595220),
  (0xA056, 0x59492053594C4C41424C45204242495420),
  (0xA057, 0x59492053594C4C41424C45204242495820),
  (0xA058, 0x59492053594C4C41424C452042424920),
  (0xA059, 0x59492053594C4C41424C45204242495020),
  (0xA05A, 0x59492053594C4C41424C4520424249455420),
  (0xA05B, 0x59492053594C4C41424C4520424249455820),
  (0xA05C, 0x59492053594C4C41424C45204242494520),
  (0xA05D, 0x59492053594C4C41424C4520424249455020),
  (0xA05E, 0x59492053594C4C41424C45204242415420),
  (0xA05F, 0x59492053594C4C41424C45204242415820),
  (0xA060, 0x59492053594C4C41424C452042424120),
  (0xA061, 0x59492053594C4C41424C45204242415020),
  (0xA062, 0x59492053594C4C41424C45204242554F5820),
  (0xA063, 0x59492053594C4C41424C45204242554F20),
  (0xA064, 0x59492053594C4C41424C45204242554F5020),
  (0xA065, 0x59492053594C4C41424C452042424F5420),
  (0xA066, 0x59492053594C4C41424C452042424F5820),
  (0xA067, 0x59492053594C4C41424C452042424F20),
  (0xA068, 0x59492053594C4C41424C452042424F5020),
  (0xA069, 0x59492053594C4C41424C45204242455820),
  (0xA06A, 0x59492053594C4C41424C452042424520),
  (0xA06B, 0x59492053594C4C41424C45204242455020),
  (0xA06C, 0x59492053594C4C41424C45204242555420),
  (0xA06D, 0x59492053594C4C41424C45204242555820)]
def names_189 : List (Nat × Nat) := [
  (0xA06E, 0x59492053594C4C41424C452042425520),
  (0xA06F, 0x59492053594C4C41424C45204242555020),
  (0xA070, 0x59492053594C4C41424C4520424255525820),
  (0xA071, 0x59492053594C4C41424C45204242555220),
  (0xA072, 0x59492053594C4C41424C45204242595420),
  (0xA073, 0x59492053594C4C41424C45204242595820),
  (0xA074, 0x59492053594C4C41424C452042425920),
  (0xA075, 0x59492053594C4C41424C45204242595020),
  (0xA076, 0x59492053594C4C41424C45204E42495420),
  (0xA077, 0x59492053594C4C41424C45204E42495820),
  (0xA078, 0x59492053594C4C41424C45204E424920),
  (0xA079, 0x59492053594C4C41424C45204E42495020),
  (0xA07A, 0x59492053594C4C41424C45204E4249455820),
  (0xA07B, 0x59492053594C4C41424C45204E42494520),
  (0xA07C, 0x59492053594C4C41424C45204E4249455020),
  (0xA07D, 0x59492053594C4C41424C45204E42415420),
  (0xA07E, 0x59492053594C4C41424C45204E42415820),
  (0xA07F, 0x59492053594C4C41424C45204E424120),
  (0xA080, 0x59492053594C4C41424C45204E42415020),
  (0xA081, 0x59492053594C4C41424C45204E424F5420),
  (0xA082, 0x59492053594C4C41424C45204E424F5820),
  (0xA083, 0x59492053594C4C41424C45204E424F20),
  (0xA084, 0x59492053594C4C41424C45204E424F5020),
  (0xA085, 0x59492053594C4C41424C45204E42555420),
  (0xA086, 0x59492053594C4C41424C45204E42555820),
  (0xA087, 0x59492053594C4C41424C45204E425520),
  (0xA088, 0x59492053594C4C41424C45204E42555020),
  (0xA089, 0x59492053594C4C41424C45204E4255525820),
  (0xA08A, 0x59492053594C4C41424C45204E42555220),
  (0xA08B, 0x59492053594C4C41424C45204E42595420),
  (0xA08C, 0x59492053594C4C41424C45204E42595820),
  (0xA08D, 0x59492053594C4C41424C45204E425920),
  (0xA08E, 0x59492053594C4C41424C45204E42595020),
  (0xA08F, 0x59492053594C4C41424C45204E4259525820),
  (0xA090, 0x59492053594C4C41424C45204E42595220),
  (0xA091, 0x59492053594C4C41424C4520484D495420),
  (0xA092, 0x59492053594C4C41424C4520484D495820),
  (0xA093, 0x59492053594C4C41424C4520484D4920),
  (0xA094, 0x59492053594C4C41424C4520484D495020),
  (0xA095, 0x59492053594C4C41424C4520484D49455820),
  (0xA096, 0x59492053594C4C41424C4520484D494520),
  (0xA097, 0x59492053594C4C41424C4520484D49455020),
  (0xA098, 0x59492053594C4C41424C4520484D415420),
  (0xA099, 0x59492053594C4C41424C4520484D415820),
  (0xA09A, 0x59492053594C4C41424C4520484D4120),
  (0xA09B, 0x59492053594C4C41424C4520484D415020),
  (0xA09C, 0x59492053594C4C41424C4520484D554F5820),
  (0xA09D, 0x59492053594C4C41424C4520484D554F20),
  (0xA09E, 0x59492053594C4C41424C4520484D554F5020),
  (0xA09F, 0x59492053594C4C41424C4520484D4F5420),
  (0xA0A0, 0x59492053594C4C41424C4520484D4F5820),
  (0xA0A1, 0x59492053594C4C41424C4520484D4F20),
  (0xA0A2, 0x59492053594C4C41424C4520484D4F5020),
  (0xA0A3, 0x59492053594C4C41424C4520484D555420),
  (0xA0A4, 0x59492053594C4C41424C4520484D555820),
  (0xA0A5, 0x59492053594C4C41424C4520484D5520),
  (0xA0A6, 0x59492053594C4C41424C4520484D555020),
  (0xA0A7, 0x59492053594C4C41424C4520484D55525820),
  (0xA0A8, 0x59492053594C4C41424C4520484D555220),
  (0xA0A9, 0x59492053594C4C41424C4520484D595820),
  (0xA0AA, 0x59492053594C4C41424C4520484D5920),
  (0xA0AB, 0x59492053594C4C41424C4520484D595020),
  (0xA0AC, 0x59492053594C4C41424C4520484D59525820),
  (0xA0AD, 0x59492053594C4C41424C4520484D595220)]
def names_190 : List (Nat × Nat) := [
  (0xA0AE, 0x59492053594C4C41424C45204D495420),
  (0xA0AF, 0x59492053594C4C41424C45204D495820),
  (0xA0B0, 0x59492053594C4C41424C45204D4920),
  (0xA0B1, 0x59492053594C4C41424C45204D495020),
  (0xA0B2, 0x59492053594C4C41424C45204D49455820),
  (0xA0B3, 0x59492053594C4C41424C45204D494520),
  (0xA0B4, 0x59492053594C4C41424C45204D49455020),
  (0xA0B5, 0x59492053594C4C41424C45204D415420),
  (0xA0B6, 0x59492053594C4C41424C45204D415820),
  (0xA0B7, 0x59492053594C4C41424C45204D4120),
  (0xA0B8, 0x59492053594C4C41424C45204D415020),
  (0xA0B9, 0x59492053594C4C41424C45204D554F5420),
  (0xA0BA, 0x59492053594C4C41424C45204D554F5820),
  (0xA0BB, 0x59492053594C4C41424C45204D554F20),
  (0xA0BC, 0x59492053594C4C41424C45204D554F5020),
  (0xA0BD, 0x59492053594C4C41424C45204D4F5420),
  (0xA0BE, 0x59492053594C4C41424C45204D4F5820),
  (0xA0BF, 0x59492053594C4C41424C45204D4F20),
  (0xA0C0, 0x59492053594C4C41424C45204D4F5020),
  (0xA0C1, 0x59492053594C4C41424C45204D455820),
  (0xA0C2, 0x59492053594C4C41424C45204D4520),
  (0xA0C3, 0x59492053594C4C41424C45204D555420),
  (0xA0C4, 0x59492053594C4C41424C45204D555820),
  (0xA0C5, 0x59492053594C4C41424C45204D5520),
  (0xA0C6, 0x59492053594C4C41424C45204D555020),
  (0xA0C7, 0x59492053594C4C41424C45204D55525820),
  (0xA0C8, 0x59492053594C4C41424C45204D555220),
  (0xA0C9, 0x59492053594C4C41424C45204D595420),
  (0xA0CA, 0x59492053594C4C41424C45204D595820),
  (0xA0CB, 0x59492053594C4C41424C45204D5920),
  (0xA0CC, 0x59492053594C4C41424C45204D595020),
  (0xA0CD, 0x59492053594C4C41424C452046495420),
  (0xA0CE, 0x59492053594C4C41424C452046495820),
  (0xA0CF, 0x59492053594C4C41424C4520464920),
  (0xA0D0, 0x59492053594C4C41424C452046495020),
  (0xA0D1, 0x59492053594C4C41424C452046415420),
  (0xA0D2, 0x59492053594C4C41424C452046415820),
  (0xA0D3, 0x59492053594C4C41424C4520464120),
  (0xA0D4, 0x59492053594C4C41424C452046415020),
  (0xA0D5, 0x59492053594C4C41424C4520464F5820),
  (0xA0D6, 0x59492053594C4C41424C4520464F20),
  (0xA0D7, 0x59492053594C4C41424C4520464F5020),
  (0xA0D8, 0x59492053594C4C41424C452046555420),
  (0xA0D9, 0x59492053594C4C41424C452046555820),
  (0xA0DA, 0x59492053594C4C41424C4520465520),
  (0xA0DB, 0x59492053594C4C41424C452046555020),
  (0xA0DC, 0x59492053594C4C41424C45204655525820),
  (0xA0DD, 0x59492053594C4C41424C452046555220),
  (0xA0DE, 0x59492053594C4C41424C452046595420),
  (0xA0DF, 0x59492053594C4C41424C452046595820),
  (0xA0E0, 0x59492053594C4C41424C4520465920),
  (0xA0E1, 0x59492053594C4C41424C452046595020),
  (0xA0E2, 0x59492053594C4C41424C452056495420),
  (0xA0E3, 0x59492053594C4C41424C452056495820),
  (0xA0E4, 0x59492053594C4C41424C4520564920),
  (0xA0E5, 0x59492053594C4C41424C452056495020),
  (0xA0E6, 0x59492053594C4C41424C45205649455420),
  (0xA0E7, 0x59492053594C4C41424C45205649455820),
  (0xA0E8, 0x59492053594C4C41424C452056494520),
  (0xA0E9, 0x59492053594C4C41424C45205649455020),
  (0xA0EA, 0x59492053594C4C41424C452056415420),
  (0xA0EB, 0x59492053594C4C41424C452056415820),
  (0xA0EC, 0x59492053594C4C41424C4520564120),
  (0xA0ED, 0x59492053594C4C41424C452056415020)]
def names_191 : List (Nat × Nat) := [
  (0xA0EE, 0x59492053594C4C41424C4520564F5420),
  (0xA0EF, 0x59492053594C4C41424C4520564F5820),
  (0xA0F0, 0x59492053594C4C41424C4520564F20),
  (0xA0F1, 0x59492053594C4C41424C4520564F5020),
  (0xA0F2, 0x59492053594C4C41424C452056455820),
  (0xA0F3, 0x59492053594C4C41424C452056455020),
  (0xA0F4, 0x59492053594C4C41424C452056555420),
  (0xA0F5, 0x59492053594C4C41424C452056555820),
  (0xA0F6, 0x59492053594C4C41424C4520565520),
  (0xA0F7, 0x59492053594C4C41424C452056555020),
  (0xA0F8, 0x59492053594C4C41424C45205655525820),
  (0xA0F9, 0x59492053594C4C41424C452056555220),
  (0xA0FA, 0x59492053594C4C41424C452056595420),
  (0xA0FB, 0x59492053594C4C41424C452056595820),
  (0xA0FC, 0x59492053594C4C41424C4520565920),
  (0xA0FD, 0x59492053594C4C41424C452056595020),
  (0xA0FE, 0x59492053594C4C41424C45205659525820),
  (0xA0FF, 0x59492053594C4C41424C452056595220),
  (0xA100, 0x59492053594C4C41424C452044495420),
  (0xA101, 0x59492053594C4C41424C452044495820),
  (0xA102, 0x59492053594C4C41424C4520444920),
  (0xA103, 0x59492053594C4C41424C452044495020),
  (0xA104, 0x59492053594C4C41424C45204449455820),
  (0xA105, 0x59492053594C4C41424C452044494520),
  (0xA106, 0x59492053594C4C41424C45204449455020),
  (0xA107, 0x59492053594C4C41424C452044415420),
  (0xA108, 0x59492053594C4C41424C452044415820),
  (0xA109, 0x59492053594C4C41424C4520444120),
  (0xA10A, 0x59492053594C4C41424C452044415020),
  (0xA10B, 0x59492053594C4C41424C452044554F5820),
  (0xA10C, 0x59492053594C4C41424C452044554F20),
  (0xA10D, 0x59492053594C4C41424C4520444F5420),
  (0xA10E, 0x59492053594C4C41424C4520444F5820),
  (0xA10F, 0x59492053594C4C41424C4520444F20),
  (0xA110, 0x59492053594C4C41424C4520444F5020),
  (0xA111, 0x59492053594C4C41424C452044455820),
  (0xA112, 0x59492053594C4C41424C4520444520),
  (0xA113, 0x59492053594C4C41424C452044455020),
  (0xA114, 0x59492053594C4C41424C452044555420),
  (0xA115, 0x59492053594C4C41424C452044555820),
  (0xA116, 0x59492053594C4C41424C4520445520),
  (0xA117, 0x59492053594C4C41424C452044555020),
  (0xA118, 0x59492053594C4C41424C45204455525820),
  (0xA119, 0x59492053594C4C41424C452044555220),
  (0xA11A, 0x59492053594C4C41424C452054495420),
  (0xA11B, 0x59492053594C4C41424C452054495820),
  (0xA11C, 0x59492053594C4C41424C4520544920),
  (0xA11D, 0x59492053594C4C41424C452054495020),
  (0xA11E, 0x59492053594C4C41424C45205449455820),
  (0xA11F, 0x59492053594C4C41424C452054494520),
  (0xA120, 0x59492053594C4C41424C45205449455020),
  (0xA121, 0x59492053594C4C41424C452054415420),
  (0xA122, 0x59492053594C4C41424C452054415820),
  (0xA123, 0x59492053594C4C41424C4520544120),
  (0xA124, 0x59492053594C4C41424C452054415020),
  (0xA125, 0x59492053594C4C41424C452054554F5420),
  (0xA126, 0x59492053594C4C41424C452054554F5820),
  (0xA127, 0x59492053594C4C41424C452054554F20),
  (0xA128, 0x59492053594C4C41424C452054554F5020),
  (0xA129, 0x59492053594C4C41424C4520544F5420),
  (0xA12A, 0x59492053594C4C41424C4520544F5820),
  (0xA12B, 0x59492053594C4C41424C4520544F20),
  (0xA12C, 0x59492053594C4C41424C4520544F5020),
  (0xA12D, 0x59492053594C4C41424C452054455820)]
def names_192 : List (Nat × Nat) := [
  (0xA12E, 0x59492053594C4C41424C4520544520),
  (0xA12F, 0x59492053594C4C41424C452054455020),
  (0xA130, 0x59492053594C4C41424C452054555420),
  (0xA131, 0x59492053594C4C41424C452054555820),
  (0xA132, 0x59492053594C4C41424C4520545520),
  (0xA133, 0x59492053594C4C41424C452054555020),
  (0xA134, 0x59492053594C4C41424C45205455525820),
  (0xA135, 0x59492053594C4C41424C452054555220),
  (0xA136, 0x59492053594C4C41424C45204444495420),
  (0xA137, 0x59492053594C4C41424C45204444495820),
  (0xA138, 0x59492053594C4C41424C452044444920),
  (0xA139, 0x59492053594C4C41424C45204444495020),
  (0xA13A, 0x59492053594C4C41424C4520444449455820),
  (0xA13B, 0x59492053594C4C41424C45204444494520),
  (0xA13C, 0x59492053594C4C41424C4520444449455020),
  (0xA13D, 0x59492053594C4C41424C45204444415420),
  (0xA13E, 0x59492053594C4C41424C45204444415820),
  (0xA13F, 0x59492053594C4C41424C452044444120),
  (0xA140, 0x59492053594C4C41424C45204444415020),
  (0xA141, 0x59492053594C4C41424C45204444554F5820),
  (0xA142, 0x59492053594C4C41424C45204444554F20),
  (0xA143, 0x59492053594C4C41424C45204444554F5020),
  (0xA144, 0x59492053594C4C41424C452044444F5420),
  (0xA145, 0x59492053594C4C41424C452044444F5820),
  (0xA146, 0x59492053594C4C41424C452044444F20),
  (0xA147, 0x59492053594C4C41424C452044444F5020),
  (0xA148, 0x59492053594C4C41424C45204444455820),
  (0xA149, 0x59492053594C4C41424C452044444520),
  (0xA14A, 0x59492053594C4C41424C45204444455020),
  (0xA14B, 0x59492053594C4C41424C45204444555420),
  (0xA14C, 0x59492053594C4C41424C45204444555820),
  (0xA14D, 0x59492053594C4C41424C452044445520),
  (0xA14E, 0x59492053594C4C41424C45204444555020),
  (0xA14F, 0x59492053594C4C41424C4520444455525820),
  (0xA150, 0x59492053594C4C41424C45204444555220),
  (0xA151, 0x59492053594C4C41424C45204E44495420),
  (0xA152, 0x59492053594C4C41424C45204E44495820),
  (0xA153, 0x59492053594C4C41424C45204E444920),
  (0xA154, 0x59492053594C4C41424C45204E44495020),
  (0xA155, 0x59492053594C4C41424C45204E4449455820),
  (0xA156, 0x59492053594C4C41424C45204E44494520),
  (0xA157, 0x59492053594C4C41424C45204E44415420),
  (0xA158, 0x59492053594C4C41424C45204E44415820),
  (0xA159, 0x59492053594C4C41424C45204E444120),
  (0xA15A, 0x59492053594C4C41424C45204E44415020),
  (0xA15B, 0x59492053594C4C41424C45204E444F5420),
  (0xA15C, 0x59492053594C4C41424C45204E444F5820),
  (0xA15D, 0x59492053594C4C41424C45204E444F20),
  (0xA15E, 0x59492053594C4C41424C45204E444F5020),
  (0xA15F, 0x59492053594C4C41424C45204E44455820),
  (0xA160, 0x59492053594C4C41424C45204E444520),
  (0xA161, 0x59492053594C4C41424C45204E44455020),
  (0xA162, 0x59492053594C4C41424C45204E44555420),
  (0xA163, 0x59492053594C4C41424C45204E44555820),
  (0xA164, 0x59492053594C4C41424C45204E445520),
  (0xA165, 0x59492053594C4C41424C45204E44555020),
  (0xA166, 0x59492053594C4C41424C45204E4455525820),
  (0xA167, 0x59492053594C4C41424C45204E44555220),
  (0xA168, 0x59492053594C4C41424C4520484E495420),
  (0xA169, 0x59492053594C4C41424C4520484E495820),
  (0xA16A, 0x59492053594C4C41424C4520484E4920),
  (0xA16B, 0x59492053594C4C41424C4520484E495020),
  (0xA16C, 0x59492053594C4C41424C4520484E49455420),
  (0xA16D, 0x59492053594C4C41424C4520484E49455820)]
def names_193 : List (Nat × Nat) := [
  (0xA16E, 0x59492053594C4C41424C4520484E494520),
  (0xA16F, 0x59492053594C4C41424C4520484E49455020),
  (0xA170, 0x59492053594C4C41424C4520484E415420),
  (0xA171, 0x59492053594C4C41424C4520484E415820),
  (0xA172, 0x59492053594C4C41424C4520484E4120),
  (0xA173, 0x59492053594C4C41424C4520484E415020),
  (0xA174, 0x59492053594C4C41424C4520484E554F5820),
  (0xA175, 0x59492053594C4C41424C4520484E554F20),
  (0xA176, 0x59492053594C4C41424C4520484E4F5420),
  (0xA177, 0x59492053594C4C41424C4520484E4F5820),
  (0xA178, 0x59492053594C4C41424C4520484E4F5020),
  (0xA179, 0x59492053594C4C41424C4520484E455820),
  (0xA17A, 0x59492053594C4C41424C4520484E4520),
  (0xA17B, 0x59492053594C4C41424C4520484E455020),
  (0xA17C, 0x59492053594C4C41424C4520484E555420),
  (0xA17D, 0x59492053594C4C41424C45204E495420),
  (0xA17E, 0x59492053594C4C41424C45204E495820),
  (0xA17F, 0x59492053594C4C41424C45204E4920),
  (0xA180, 0x59492053594C4C41424C45204E495020),
  (0xA181, 0x59492053594C4C41424C45204E49455820),
  (0xA182, 0x59492053594C4C41424C45204E494520),
  (0xA183, 0x59492053594C4C41424C45204E49455020),
  (0xA184, 0x59492053594C4C41424C45204E415820),
  (0xA185, 0x59492053594C4C41424C45204E4120),
  (0xA186, 0x59492053594C4C41424C45204E415020),
  (0xA187, 0x59492053594C4C41424C45204E554F5820),
  (0xA188, 0x59492053594C4C41424C45204E554F20),
  (0xA189, 0x59492053594C4C41424C45204E554F5020),
  (0xA18A, 0x59492053594C4C41424C45204E4F5420),
  (0xA18B, 0x59492053594C4C41424C45204E4F5820),
  (0xA18C, 0x59492053594C4C41424C45204E4F20),
  (0xA18D, 0x59492053594C4C41424C45204E4F5020),
  (0xA18E, 0x59492053594C4C41424C45204E455820),
  (0xA18F, 0x59492053594C4C41424C45204E4520),
  (0xA190, 0x59492053594C4C41424C45204E455020),
  (0xA191, 0x59492053594C4C41424C45204E555420),
  (0xA192, 0x59492053594C4C41424C45204E555820),
  (0xA193, 0x59492053594C4C41424C45204E5520),
  (0xA194, 0x59492053594C4C41424C45204E555020),
  (0xA195, 0x59492053594C4C41424C45204E55525820),
  (0xA196, 0x59492053594C4C41424C45204E555220),
  (0xA197, 0x59492053594C4C41424C4520484C495420),
  (0xA198, 0x59492053594C4C41424C4520484C495820),
  (0xA199, 0x59492053594C4C41424C4520484C4920),
  (0xA19A, 0x59492053594C4C41424C4520484C495020),
  (0xA19B, 0x59492053594C4C41424C4520484C49455820),
  (0xA19C, 0x59492053594C4C41424C4520484C494520),
  (0xA19D, 0x59492053594C4C41424C4520484C49455020),
  (0xA19E, 0x59492053594C4C41424C4520484C415420),
  (0xA19F, 0x59492053594C4C41424C4520484C415820),
  (0xA1A0, 0x59492053594C4C41424C4520484C4120),
  (0xA1A1, 0x59492053594C4C41424C4520484C415020),
  (0xA1A2, 0x59492053594C4C41424C4520484C554F5820),
  (0xA1A3, 0x59492053594C4C41424C4520484C554F20),
  (0xA1A4, 0x59492053594C4C41424C4520484C554F5020),
  (0xA1A5, 0x59492053594C4C41424C4520484C4F5820),
  (0xA1A6, 0x59492053594C4C41424C4520484C4F20),
  (0xA1A7, 0x59492053594C4C41424C4520484C4F5020),
  (0xA1A8, 0x59492053594C4C41424C4520484C455820),
  (0xA1A9, 0x59492053594C4C41424C4520484C4520),
  (0xA1AA, 0x59492053594C4C41424C4520484C455020),
  (0xA1AB, 0x59492053594C4C41424C4520484C555420),
  (0xA1AC, 0x59492053594C4C41424C4520484C555820),
  (0xA1AD, 0x59492053594C4C41424C4520484C5520)]
def names_194 : List (Nat × Nat) := [
  (0xA1AE, 0x59492053594C4C41424C4520484C555020),
  (0xA1AF, 0x59492053594C4C41424C4520484C55525820),
  (0xA1B0, 0x59492053594C4C41424C4520484C555220),
  (0xA1B1, 0x59492053594C4C41424C4520484C595420),
  (0xA1B2, 0x59492053594C4C41424C4520484C595820),
  (0xA1B3, 0x59492053594C4C41424C4520484C5920),
  (0xA1B4, 0x59492053594C4C41424C4520484C595020),
  (0xA1B5, 0x59492053594C4C41424C4520484C59525820),
  (0xA1B6, 0x59492053594C4C41424C4520484C595220),
  (0xA1B7, 0x59492053594C4C41424C45204C495420),
  (0xA1B8, 0x59492053594C4C41424C45204C495820),
  (0xA1B9, 0x59492053594C4C41424C45204C4920),
  (0xA1BA, 0x59492053594C4C41424C45204C495020),
  (0xA1BB, 0x59492053594C4C41424C45204C49455420),
  (0xA1BC, 0x59492053594C4C41424C45204C49455820),
  (0xA1BD, 0x59492053594C4C41424C45204C494520),
  (0xA1BE, 0x59492053594C4C41424C45204C49455020),
  (0xA1BF, 0x59492053594C4C41424C45204C415420),
  (0xA1C0, 0x59492053594C4C41424C45204C415820),
  (0xA1C1, 0x59492053594C4C41424C45204C4120),
  (0xA1C2, 0x59492053594C4C41424C45204C415020),
  (0xA1C3, 0x59492053594C4C41424C45204C554F5420),
  (0xA1C4, 0x59492053594C4C41424C45204C554F5820),
  (0xA1C5, 0x59492053594C4C41424C45204C554F20),
  (0xA1C6, 0x59492053594C4C41424C45204C554F5020),
  (0xA1C7, 0x59492053594C4C41424C45204C4F5420),
  (0xA1C8, 0x59492053594C4C41424C45204C4F5820),
  (0xA1C9, 0x59492053594C4C41424C45204C4F20),
  (0xA1CA, 0x59492053594C4C41424C45204C4F5020),
  (0xA1CB, 0x59492053594C4C41424C45204C455820),
  (0xA1CC, 0x59492053594C4C41424C45204C4520),
  (0xA1CD, 0x59492053594C4C41424C45204C455020),
  (0xA1CE, 0x59492053594C4C41424C45204C555420),
  (0xA1CF, 0x59492053594C4C41424C45204C555820),
  (0xA1D0, 0x59492053594C4C41424C45204C5520),
  (0xA1D1, 0x59492053594C4C41424C45204C555020),
  (0xA1D2, 0x59492053594C4C41424C45204C55525820),
  (0xA1D3, 0x59492053594C4C41424C45204C555220),
  (0xA1D4, 0x59492053594C4C41424C45204C595420),
  (0xA1D5, 0x59492053594C4C41424C45204C595820),
  (0xA1D6, 0x59492053594C4C41424C45204C5920),
  (0xA1D7, 0x59492053594C4C41424C45204C595020),
  (0xA1D8, 0x59492053594C4C41424C45204C59525820),
  (0xA1D9, 0x59492053594C4C41424C45204C595220),
  (0xA1DA, 0x59492053594C4C41424C452047495420),
  (0xA1DB, 0x59492053594C4C41424C452047495820),
  (0xA1DC, 0x59492053594C4C41424C4520474920),
  (0xA1DD, 0x59492053594C4C41424C452047495020),
  (0xA1DE, 0x59492053594C4C41424C45204749455420),
  (0xA1DF, 0x59492053594C4C41424C45204749455820),
  (0xA1E0, 0x59492053594C4C41424C452047494520),
  (0xA1E1, 0x59492053594C4C41424C45204749455020),
  (0xA1E2, 0x59492053594C4C41424C452047415420),
  (0xA1E3, 0x59492053594C4C41424C452047415820),
  (0xA1E4, 0x59492053594C4C41424C4520474120),
  (0xA1E5, 0x59492053594C4C41424C452047415020),
  (0xA1E6, 0x59492053594C4C41424C452047554F5420),
  (0xA1E7, 0x59492053594C4C41424C452047554F5820),
  (0xA1E8, 0x59492053594C4C41424C452047554F20),
  (0xA1E9, 0x59492053594C4C41424C452047554F5020),
  (0xA1EA, 0x59492053594C4C41424C4520474F5420),
  (0xA1EB, 0x59492053594C4C41424C4520474F5820),
  (0xA1EC, 0x59492053594C4C41424C4520474F20),
  (0xA1ED, 0x59492053594C4C41424C4520474F5020)]
def names_195 : List (Nat × Nat) := [
  (0xA1EE, 0x59492053594C4C41424C452047455420),
  (0xA1EF, 0x59492053594C4C41424C452047455820),
  (0xA1F0, 0x59492053594C4C41424C4520474520),
  (0xA1F1, 0x59492053594C4C41424C452047455020),
  (0xA1F2, 0x59492053594C4C41424C452047555420),
  (0xA1F3, 0x59492053594C4C41424C452047555820),
  (0xA1F4, 0x59492053594C4C41424C4520475520),
  (0xA1F5, 0x59492053594C4C41424C452047555020),
  (0xA1F6, 0x59492053594C4C41424C45204755525820),
  (0xA1F7, 0x59492053594C4C41424C452047555220),
  (0xA1F8, 0x59492053594C4C41424C45204B495420),
  (0xA1F9, 0x59492053594C4C41424C45204B495820),
  (0xA1FA, 0x59492053594C4C41424C45204B4920),
  (0xA1FB, 0x59492053594C4C41424C45204B495020),
  (0xA1FC, 0x59492053594C4C41424C45204B49455820),
  (0xA1FD, 0x59492053594C4C41424C45204B494520),
  (0xA1FE, 0x59492053594C4C41424C45204B49455020),
  (0xA1FF, 0x59492053594C4C41424C45204B415420),
  (0xA200, 0x59492053594C4C41424C45204B415820),
  (0xA201, 0x59492053594C4C41424C45204B4120),
  (0xA202, 0x59492053594C4C41424C45204B415020),
  (0xA203, 0x59492053594C4C41424C45204B554F5820),
  (0xA204, 0x59492053594C4C41424C45204B554F20),
  (0xA205, 0x59492053594C4C41424C45204B554F5020),
  (0xA206, 0x59492053594C4C41424C45204B4F5420),
  (0xA207, 0x59492053594C4C41424C45204B4F5820),
  (0xA208, 0x59492053594C4C41424C45204B4F20),
  (0xA209, 0x59492053594C4C41424C45204B4F5020),
  (0xA20A, 0x59492053594C4C41424C45204B455420),
  (0xA20B, 0x59492053594C4C41424C45204B455820),
  (0xA20C, 0x59492053594C4C41424C45204B4520),
  (0xA20D, 0x59492053594C4C41424C45204B455020),
  (0xA20E, 0x59492053594C4C41424C45204B555420),
  (0xA20F, 0x59492053594C4C41424C45204B555820),
  (0xA210, 0x59492053594C4C41424C45204B5520),
  (0xA211, 0x59492053594C4C41424C45204B555020),
  (0xA212, 0x59492053594C4C41424C45204B55525820),
  (0xA213, 0x59492053594C4C41424C45204B555220),
  (0xA214, 0x59492053594C4C41424C45204747495420),
  (0xA215, 0x59492053594C4C41424C45204747495820),
  (0xA216, 0x59492053594C4C41424C452047474920),
  (0xA217, 0x59492053594C4C41424C4520474749455820),
  (0xA218, 0x59492053594C4C41424C45204747494520),
  (0xA219, 0x59492053594C4C41424C4520474749455020),
  (0xA21A, 0x59492053594C4C41424C45204747415420),
  (0xA21B, 0x59492053594C4C41424C45204747415820),
  (0xA21C, 0x59492053594C4C41424C452047474120),
  (0xA21D, 0x59492053594C4C41424C45204747415020),
  (0xA21E, 0x59492053594C4C41424C45204747554F5420),
  (0xA21F, 0x59492053594C4C41424C45204747554F5820),
  (0xA220, 0x59492053594C4C41424C45204747554F20),
  (0xA221, 0x59492053594C4C41424C45204747554F5020),
  (0xA222, 0x59492053594C4C41424C452047474F5420),
  (0xA223, 0x59492053594C4C41424C452047474F5820),
  (0xA224, 0x59492053594C4C41424C452047474F20),
  (0xA225, 0x59492053594C4C41424C452047474F5020),
  (0xA226, 0x59492053594C4C41424C45204747455420),
  (0xA227, 0x59492053594C4C41424C45204747455820),
  (0xA228, 0x59492053594C4C41424C452047474520),
  (0xA229, 0x59492053594C4C41424C45204747455020),
  (0xA22A, 0x59492053594C4C41424C45204747555420),
  (0xA22B, 0x59492053594C4C41424C45204747555820),
  (0xA22C, 0x59492053594C4C41424C452047475520),
  (0xA22D, 0x59492053594C4C41424C45204747555020)]
def names_196 : List (Nat × Nat) := [
  (0xA22E, 0x59492053594C4C41424C4520474755525820),
  (0xA22F, 0x59492053594C4C41424C45204747555220),
  (0xA230, 0x59492053594C4C41424C45204D4749455820),
  (0xA231, 0x59492053594C4C41424C45204D47494520),
  (0xA232, 0x59492053594C4C41424C45204D47415420),
  (0xA233, 0x59492053594C4C41424C45204D47415820),
  (0xA234, 0x59492053594C4C41424C45204D474120),
  (0xA235, 0x59492053594C4C41424C45204D47415020),
  (0xA236, 0x59492053594C4C41424C45204D47554F5820),
  (0xA237, 0x59492053594C4C41424C45204D47554F20),
  (0xA238, 0x59492053594C4C41424C45204D47554F5020),
  (0xA239, 0x59492053594C4C41424C45204D474F5420),
  (0xA23A, 0x59492053594C4C41424C45204D474F5820),
  (0xA23B, 0x59492053594C4C41424C45204D474F20),
  (0xA23C, 0x59492053594C4C41424C45204D474F5020),
  (0xA23D, 0x59492053594C4C41424C45204D47455820),
  (0xA23E, 0x59492053594C4C41424C45204D474520),
  (0xA23F, 0x59492053594C4C41424C45204D47455020),
  (0xA240, 0x59492053594C4C41424C45204D47555420),
  (0xA241, 0x59492053594C4C41424C45204D47555820),
  (0xA242, 0x59492053594C4C41424C45204D475520),
  (0xA243, 0x59492053594C4C41424C45204D47555020),
  (0xA244, 0x59492053594C4C41424C45204D4755525820),
  (0xA245, 0x59492053594C4C41424C45204D47555220),
  (0xA246, 0x59492053594C4C41424C45204858495420),
  (0xA247, 0x59492053594C4C41424C45204858495820),
  (0xA248, 0x59492053594C4C41424C452048584920),
  (0xA249, 0x59492053594C4C41424C45204858495020),
  (0xA24A, 0x59492053594C4C41424C4520485849455420),
  (0xA24B, 0x59492053594C4C41424C4520485849455820),
  (0xA24C, 0x59492053594C4C41424C45204858494520),
  (0xA24D, 0x59492053594C4C41424C4520485849455020),
  (0xA24E, 0x59492053594C4C41424C45204858415420),
  (0xA24F, 0x59492053594C4C41424C45204858415820),
  (0xA250, 0x59492053594C4C41424C452048584120),
  (0xA251, 0x59492053594C4C41424C45204858415020),
  (0xA252, 0x59492053594C4C41424C45204858554F5420),
  (0xA253, 0x59492053594C4C41424C45204858554F5820),
  (0xA254, 0x59492053594C4C41424C45204858554F20),
  (0xA255, 0x59492053594C4C41424C45204858554F5020),
  (0xA256, 0x59492053594C4C41424C452048584F5420),
  (0xA257, 0x59492053594C4C41424C452048584F5820),
  (0xA258, 0x59492053594C4C41424C452048584F20),
  (0xA259, 0x59492053594C4C41424C452048584F5020),
  (0xA25A, 0x59492053594C4C41424C45204858455820),
  (0xA25B, 0x59492053594C4C41424C452048584520),
  (0xA25C, 0x59492053594C4C41424C45204858455020),
  (0xA25D, 0x59492053594C4C41424C45204E4749455820),
  (0xA25E, 0x59492053594C4C41424C45204E47494520),
  (0xA25F, 0x59492053594C4C41424C45204E4749455020),
  (0xA260, 0x59492053594C4C41424C45204E47415420),
  (0xA261, 0x59492053594C4C41424C45204E47415820),
  (0xA262, 0x59492053594C4C41424C45204E474120),
  (0xA263, 0x59492053594C4C41424C45204E47415020),
  (0xA264, 0x59492053594C4C41424C45204E47554F5420),
  (0xA265, 0x59492053594C4C41424C45204E47554F5820),
  (0xA266, 0x59492053594C4C41424C45204E47554F20),
  (0xA267, 0x59492053594C4C41424C45204E474F5420),
  (0xA268, 0x59492053594C4C41424C45204E474F5820),
  (0xA269, 0x59492053594C4C41424C45204E474F20),
  (0xA26A, 0x59492053594C4C41424C45204E474F5020),
  (0xA26B, 0x59492053594C4C41424C45204E47455820),
  (0xA26C, 0x59492053594C4C41424C45204E474520),
  (0xA26D, 0x59492053594C4C41424C45204E47455020)]
def names_197 : List (Nat × Nat) := [
  (0xA26E, 0x59492053594C4C41424C452048495420),
  (0xA26F, 0x59492053594C4C41424C45204849455820),
  (0xA270, 0x59492053594C4C41424C452048494520),
  (0xA271, 0x59492053594C4C41424C452048415420),
  (0xA272, 0x59492053594C4C41424C452048415820),
  (0xA273, 0x59492053594C4C41424C4520484120),
  (0xA274, 0x59492053594C4C41424C452048415020),
  (0xA275, 0x59492053594C4C41424C452048554F5420),
  (0xA276, 0x59492053594C4C41424C452048554F5820),
  (0xA277, 0x59492053594C4C41424C452048554F20),
  (0xA278, 0x59492053594C4C41424C452048554F5020),
  (0xA279, 0x59492053594C4C41424C4520484F5420),
  (0xA27A, 0x59492053594C4C41424C4520484F5820),
  (0xA27B, 0x59492053594C4C41424C4520484F20),
  (0xA27C, 0x59492053594C4C41424C4520484F5020),
  (0xA27D, 0x59492053594C4C41424C452048455820),
  (0xA27E, 0x59492053594C4C41424C4520484520),
  (0xA27F, 0x59492053594C4C41424C452048455020),
  (0xA280, 0x59492053594C4C41424C452057415420),
  (0xA281, 0x59492053594C4C41424C452057415820),
  (0xA282, 0x59492053594C4C41424C4520574120),
  (0xA283, 0x59492053594C4C41424C452057415020),
  (0xA284, 0x59492053594C4C41424C452057554F5820),
  (0xA285, 0x59492053594C4C41424C452057554F20),
  (0xA286, 0x59492053594C4C41424C452057554F5020),
  (0xA287, 0x59492053594C4C41424C4520574F5820),
  (0xA288, 0x59492053594C4C41424C4520574F20),
  (0xA289, 0x59492053594C4C41424C4520574F5020),
  (0xA28A, 0x59492053594C4C41424C452057455820),
  (0xA28B, 0x59492053594C4C41424C4520574520),
  (0xA28C, 0x59492053594C4C41424C452057455020),
  (0xA28D, 0x59492053594C4C41424C45205A495420),
  (0xA28E, 0x59492053594C4C41424C45205A495820),
  (0xA28F, 0x59492053594C4C41424C45205A4920),
  (0xA290, 0x59492053594C4C41424C45205A495020),
  (0xA291, 0x59492053594C4C41424C45205A49455820),
  (0xA292, 0x59492053594C4C41424C45205A494520),
  (0xA293, 0x59492053594C4C41424C45205A49455020),
  (0xA294, 0x59492053594C4C41424C45205A415420),
  (0xA295, 0x59492053594C4C41424C45205A415820),
  (0xA296, 0x59492053594C4C41424C45205A4120),
  (0xA297, 0x59492053594C4C41424C45205A415020),
  (0xA298, 0x59492053594C4C41424C45205A554F5820),
  (0xA299, 0x59492053594C4C41424C45205A554F20),
  (0xA29A, 0x59492053594C4C41424C45205A554F5020),
  (0xA29B, 0x59492053594C4C41424C45205A4F5420),
  (0xA29C, 0x59492053594C4C41424C45205A4F5820),
  (0xA29D, 0x59492053594C4C41424C45205A4F20),
  (0xA29E, 0x59492053594C4C41424C45205A4F5020),
  (0xA29F, 0x59492053594C4C41424C45205A455820),
  (0xA2A0, 0x59492053594C4C41424C45205A4520),
  (0xA2A1, 0x59492053594C4C41424C45205A455020),
  (0xA2A2, 0x59492053594C4C41424C45205A555420),
  (0xA2A3, 0x59492053594C4C41424C45205A555820),
  (0xA2A4, 0x59492053594C4C41424C45205A5520),
  (0xA2A5, 0x59492053594C4C41424C45205A555020),
  (0xA2A6, 0x59492053594C4C41424C45205A55525820),
  (0xA2A7, 0x59492053594C4C41424C45205A555220),
  (0xA2A8, 0x59492053594C4C41424C45205A595420),
  (0xA2A9, 0x59492053594C4C41424C45205A595820),
  (0xA2AA, 0x59492053594C4C41424C45205A5920),
  (0xA2AB, 0x59492053594C4C41424C45205A595020),
  (0xA2AC, 0x59492053594C4C41424C45205A59525820),
  (0xA2AD, 0x59492053594C4C41424C45205A595220)]
def names_198 : List (Nat × Nat) := [
  (0xA2AE, 0x59492053594C4C41424C452043495420),
  (0xA2AF, 0x59492053594C4C41424C452043495820),
  (0xA2B0, 0x59492053594C4C41424C4520434920),
  (0xA2B1, 0x59492053594C4C41424C452043495020),
  (0xA2B2, 0x59492053594C4C41424C45204349455420),
  (0xA2B3, 0x59492053594C4C41424C45204349455820),
  (0xA2B4, 0x59492053594C4C41424C452043494520),
  (0xA2B5, 0x59492053594C4C41424C45204349455020),
  (0xA2B6, 0x59492053594C4C41424C452043415420),
  (0xA2B7, 0x59492053594C4C41424C452043415820),
  (0xA2B8, 0x59492053594C4C41424C4520434120),
  (0xA2B9, 0x59492053594C4C41424C452043415020),
  (0xA2BA, 0x59492053594C4C41424C452043554F5820),
  (0xA2BB, 0x59492053594C4C41424C452043554F20),
  (0xA2BC, 0x59492053594C4C41424C452043554F5020),
  (0xA2BD, 0x59492053594C4C41424C4520434F5420),
  (0xA2BE, 0x59492053594C4C41424C4520434F5820),
  (0xA2BF, 0x59492053594C4C41424C4520434F20),
  (0xA2C0, 0x59492053594C4C41424C4520434F5020),
  (0xA2C1, 0x59492053594C4C41424C452043455820),
  (0xA2C2, 0x59492053594C4C41424C4520434520),
  (0xA2C3, 0x59492053594C4C41424C452043455020),
  (0xA2C4, 0x59492053594C4C41424C452043555420),
  (0xA2C5, 0x59492053594C4C41424C452043555820),
  (0xA2C6, 0x59492053594C4C41424C4520435520),
  (0xA2C7, 0x59492053594C4C41424C452043555020),
  (0xA2C8, 0x59492053594C4C41424C45204355525820),
  (0xA2C9, 0x59492053594C4C41424C452043555220),
  (0xA2CA, 0x59492053594C4C41424C452043595420),
  (0xA2CB, 0x59492053594C4C41424C452043595820),
  (0xA2CC, 0x59492053594C4C41424C4520435920),
  (0xA2CD, 0x59492053594C4C41424C452043595020),
  (0xA2CE, 0x59492053594C4C41424C45204359525820),
  (0xA2CF, 0x59492053594C4C41424C452043595220),
  (0xA2D0, 0x59492053594C4C41424C45205A5A495420),
  (0xA2D1, 0x59492053594C4C41424C45205A5A495820),
  (0xA2D2, 0x59492053594C4C41424C45205A5A4920),
  (0xA2D3, 0x59492053594C4C41424C45205A5A495020),
  (0xA2D4, 0x59492053594C4C41424C45205A5A49455420),
  (0xA2D5, 0x59492053594C4C41424C45205A5A49455820),
  (0xA2D6, 0x59492053594C4C41424C45205A5A494520),
  (0xA2D7, 0x59492053594C4C41424C45205A5A49455020),
  (0xA2D8, 0x59492053594C4C41424C45205A5A415420),
  (0xA2D9, 0x59492053594C4C41424C45205A5A415820),
  (0xA2DA, 0x59492053594C4C41424C45205A5A4120),
  (0xA2DB, 0x59492053594C4C41424C45205A5A415020),
  (0xA2DC, 0x59492053594C4C41424C45205A5A4F5820),
  (0xA2DD, 0x59492053594C4C41424C45205A5A4F20),
  (0xA2DE, 0x59492053594C4C41424C45205A5A4F5020),
  (0xA2DF, 0x59492053594C4C41424C45205A5A455820),
  (0xA2E0, 0x59492053594C4C41424C45205A5A4520),
  (0xA2E1, 0x59492053594C4C41424C45205A5A455020),
  (0xA2E2, 0x59492053594C4C41424C45205A5A555820),
  (0xA2E3, 0x59492053594C4C41424C45205A5A5520),
  (0xA2E4, 0x59492053594C4C41424C45205A5A555020),
  (0xA2E5, 0x59492053594C4C41424C45205A5A55525820),
  (0xA2E6, 0x59492053594C4C41424C45205A5A555220),
  (0xA2E7, 0x59492053594C4C41424C45205A5A595420),
  (0xA2E8, 0x59492053594C4C41424C45205A5A595820),
  (0xA2E9, 0x59492053594C4C41424C45205A5A5920),
  (0xA2EA, 0x59492053594C4C41424C45205A5A595020),
  (0xA2EB, 0x59492053594C4C41424C45205A5A59525820),
  (0xA2EC, 0x59492053594C4C41424C45205A5A595220),
  (0xA2ED, 0x59492053594C4C41424C45204E5A495420)]
def names_199 : List (Nat × Nat) := [
  (0xA2EE, 0x59492053594C4C41424C45204E5A495820),
  (0xA2EF, 0x59492053594C4C41424C45204E5A4920),
  (0xA2F0, 0x59492053594C4C41424C45204E5A495020),
  (0xA2F1, 0x59492053594C4C41424C45204E5A49455820),
  (0xA2F2, 0x59492053594C4C41424C45204E5A494520),
  (0xA2F3, 0x59492053594C4C41424C45204E5A49455020),
  (0xA2F4, 0x59492053594C4C41424C45204E5A415420),
  (0xA2F5, 0x59492053594C4C41424C45204E5A415820),
  (0xA2F6, 0x59492053594C4C41424C45204E5A4120),
  (0xA2F7, 0x59492053594C4C41424C45204E5A415020),
  (0xA2F8, 0x59492053594C4C41424C45204E5A554F5820),
  (0xA2F9, 0x59492053594C4C41424C45204E5A554F20),
  (0xA2FA, 0x59492053594C4C41424C45204E5A4F5820),
  (0xA2FB, 0x59492053594C4C41424C45204E5A4F5020),
  (0xA2FC, 0x59492053594C4C41424C45204E5A455820),
  (0xA2FD, 0x59492053594C4C41424C45204E5A4520),
  (0xA2FE, 0x59492053594C4C41424C45204E5A555820),
  (0xA2FF, 0x59492053594C4C41424C45204E5A5520),
  (0xA300, 0x59492053594C4C41424C45204E5A555020),
  (0xA301, 0x59492053594C4C41424C45204E5A55525820),
  (0xA302, 0x59492053594C4C41424C45204E5A555220),
  (0xA303, 0x59492053594C4C41424C45204E5A595420),
  (0xA304, 0x59492053594C4C41424C45204E5A595820),
  (0xA305, 0x59492053594C4C41424C45204E5A5920),
  (0xA306, 0x59492053594C4C41424C45204E5A595020),
  (0xA307, 0x59492053594C4C41424C45204E5A59525820),
  (0xA308, 0x59492053594C4C41424C45204E5A595220),
  (0xA309, 0x59492053594C4C41424C452053495420),
  (0xA30A, 0x59492053594C4C41424C452053495820),
  (0xA30B, 0x59492053594C4C41424C4520534920),
  (0xA30C, 0x59492053594C4C41424C452053495020),
  (0xA30D, 0x59492053594C4C41424C45205349455820),
  (0xA30E, 0x59492053594C4C41424C452053494520),
  (0xA30F, 0x59492053594C4C41424C45205349455020),
  (0xA310, 0x59492053594C4C41424C452053415420),
  (0xA311, 0x59492053594C4C41424C452053415820),
  (0xA312, 0x59492053594C4C41424C4520534120),
  (0xA313, 0x59492053594C4C41424C452053415020),
  (0xA314, 0x59492053594C4C41424C452053554F5820),
  (0xA315, 0x59492053594C4C41424C452053554F20),
  (0xA316, 0x59492053594C4C41424C452053554F5020),
  (0xA317, 0x59492053594C4C41424C4520534F5420),
  (0xA318, 0x59492053594C4C41424C4520534F5820),
  (0xA319, 0x59492053594C4C41424C4520534F20),
  (0xA31A, 0x59492053594C4C41424C4520534F5020),
  (0xA31B, 0x59492053594C4C41424C452053455820),
  (0xA31C, 0x59492053594C4C41424C4520534520),
  (0xA31D, 0x59492053594C4C41424C452053455020),
  (0xA31E, 0x59492053594C4C41424C452053555420),
  (0xA31F, 0x59492053594C4C41424C452053555820),
  (0xA320, 0x59492053594C4C41424C4520535520),
  (0xA321, 0x59492053594C4C41424C452053555020),
  (0xA322, 0x59492053594C4C41424C45205355525820),
  (0xA323, 0x59492053594C4C41424C452053555220),
  (0xA324, 0x59492053594C4C41424C452053595420),
  (0xA325, 0x59492053594C4C41424C452053595820),
  (0xA326, 0x59492053594C4C41424C4520535920),
  (0xA327, 0x59492053594C4C41424C452053595020),
  (0xA328, 0x59492053594C4C41424C45205359525820),
  (0xA329, 0x59492053594C4C41424C452053595220),
  (0xA32A, 0x59492053594C4C41424C45205353495420),
  (0xA32B, 0x59492053594C4C41424C45205353495820),
  (0xA32C, 0x59492053594C4C41424C452053534920),
  (0xA32D, 0x59492053594C4C41424C45205353495020)]
def names_200 : List (Nat × Nat) := [
  (0xA32E, 0x59492053594C4C41424C4520535349455820),
  (0xA32F, 0x59492053594C4C41424C45205353494520),
  (0xA330, 0x59492053594C4C41424C4520535349455020),
  (0xA331, 0x59492053594C4C41424C45205353415420),
  (0xA332, 0x59492053594C4C41424C45205353415820),
  (0xA333, 0x59492053594C4C41424C452053534120),
  (0xA334, 0x59492053594C4C41424C45205353415020),
  (0xA335, 0x59492053594C4C41424C452053534F5420),
  (0xA336, 0x59492053594C4C41424C452053534F5820),
  (0xA337, 0x59492053594C4C41424C452053534F20),
  (0xA338, 0x59492053594C4C41424C452053534F5020),
  (0xA339, 0x59492053594C4C41424C45205353455820),
  (0xA33A, 0x59492053594C4C41424C452053534520),
  (0xA33B, 0x59492053594C4C41424C45205353455020),
  (0xA33C, 0x59492053594C4C41424C45205353555420),
  (0xA33D, 0x59492053594C4C41424C45205353555820),
  (0xA33E, 0x59492053594C4C41424C452053535520),
  (0xA33F, 0x59492053594C4C41424C45205353555020),
  (0xA340, 0x59492053594C4C41424C45205353595420),
  (0xA341, 0x59492053594C4C41424C45205353595820),
  (0xA342, 0x59492053594C4C41424C452053535920),
  (0xA343, 0x59492053594C4C41424C45205353595020),
  (0xA344, 0x59492053594C4C41424C4520535359525820),
  (0xA345, 0x59492053594C4C41424C45205353595220),
  (0xA346, 0x59492053594C4C41424C45205A48415420),
  (0xA347, 0x59492053594C4C41424C45205A48415820),
  (0xA348, 0x59492053594C4C41424C45205A484120),
  (0xA349, 0x59492053594C4C41424C45205A48415020),
  (0xA34A, 0x59492053594C4C41424C45205A48554F5820),
  (0xA34B, 0x59492053594C4C41424C45205A48554F20),
  (0xA34C, 0x59492053594C4C41424C45205A48554F5020),
  (0xA34D, 0x59492053594C4C41424C45205A484F5420),
  (0xA34E, 0x59492053594C4C41424C45205A484F5820),
  (0xA34F, 0x59492053594C4C41424C45205A484F20),
  (0xA350, 0x59492053594C4C41424C45205A484F5020),
  (0xA351, 0x59492053594C4C41424C45205A48455420),
  (0xA352, 0x59492053594C4C41424C45205A48455820),
  (0xA353, 0x59492053594C4C41424C45205A484520),
  (0xA354, 0x59492053594C4C41424C45205A48455020),
  (0xA355, 0x59492053594C4C41424C45205A48555420),
  (0xA356, 0x59492053594C4C41424C45205A48555820),
  (0xA357, 0x59492053594C4C41424C45205A485520),
  (0xA358, 0x59492053594C4C41424C45205A48555020),
  (0xA359, 0x59492053594C4C41424C45205A4855525820),
  (0xA35A, 0x59492053594C4C41424C45205A48555220),
  (0xA35B, 0x59492053594C4C41424C45205A48595420),
  (0xA35C, 0x59492053594C4C41424C45205A48595820),
  (0xA35D, 0x59492053594C4C41424C45205A485920),
  (0xA35E, 0x59492053594C4C41424C45205A48595020),
  (0xA35F, 0x59492053594C4C41424C45205A4859525820),
  (0xA360, 0x59492053594C4C41424C45205A48595220),
  (0xA361, 0x59492053594C4C41424C45204348415420),
  (0xA362, 0x59492053594C4C41424C45204348415820),
  (0xA363, 0x59492053594C4C41424C452043484120),
  (0xA364, 0x59492053594C4C41424C45204348415020),
  (0xA365, 0x59492053594C4C41424C45204348554F5420),
  (0xA366, 0x59492053594C4C41424C45204348554F5820),
  (0xA367, 0x59492053594C4C41424C45204348554F20),
  (0xA368, 0x59492053594C4C41424C45204348554F5020),
  (0xA369, 0x59492053594C4C41424C452043484F5420),
  (0xA36A, 0x59492053594C4C41424C452043484F5820),
  (0xA36B, 0x59492053594C4C41424C452043484F20),
  (0xA36C, 0x59492053594C4C41424C452043484F5020),
  (0xA36D, 0x59492053594C4C41424C45204348455420)]
def names_201 : List (Nat × Nat) := [
  (0xA36E, 0x59492053594C4C41424C45204348455820),
  (0xA36F, 0x59492053594C4C41424C452043484520),
  (0xA370, 0x59492053594C4C41424C45204348455020),
  (0xA371, 0x59492053594C4C41424C45204348555820),
  (0xA372, 0x59492053594C4C41424C452043485520),
  (0xA373, 0x59492053594C4C41424C45204348555020),
  (0xA374, 0x59492053594C4C41424C4520434855525820),
  (0xA375, 0x59492053594C4C41424C45204348555220),
  (0xA376, 0x59492053594C4C41424C45204348595420),
  (0xA377, 0x59492053594C4C41424C45204348595820),
  (0xA378, 0x59492053594C4C41424C452043485920),
  (0xA379, 0x59492053594C4C41424C45204348595020),
  (0xA37A, 0x59492053594C4C41424C4520434859525820),
  (0xA37B, 0x59492053594C4C41424C45204348595220),
  (0xA37C, 0x59492053594C4C41424C45205252415820),
  (0xA37D, 0x59492053594C4C41424C452052524120),
  (0xA37E, 0x59492053594C4C41424C45205252554F5820),
  (0xA37F, 0x59492053594C4C41424C45205252554F20),
  (0xA380, 0x59492053594C4C41424C452052524F5420),
  (0xA381, 0x59492053594C4C41424C452052524F5820),
  (0xA382, 0x59492053594C4C41424C452052524F20),
  (0xA383, 0x59492053594C4C41424C452052524F5020),
  (0xA384, 0x59492053594C4C41424C45205252455420),
  (0xA385, 0x59492053594C4C41424C45205252455820),
  (0xA386, 0x59492053594C4C41424C452052524520),
  (0xA387, 0x59492053594C4C41424C45205252455020),
  (0xA388, 0x59492053594C4C41424C45205252555420),
  (0xA389, 0x59492053594C4C41424C45205252555820),
  (0xA38A, 0x59492053594C4C41424C452052525520),
  (0xA38B, 0x59492053594C4C41424C45205252555020),
  (0xA38C, 0x59492053594C4C41424C4520525255525820),
  (0xA38D, 0x59492053594C4C41424C45205252555220),
  (0xA38E, 0x59492053594C4C41424C45205252595420),
  (0xA38F, 0x59492053594C4C41424C45205252595820),
  (0xA390, 0x59492053594C4C41424C452052525920),
  (0xA391, 0x59492053594C4C41424C45205252595020),
  (0xA392, 0x59492053594C4C41424C4520525259525820),
  (0xA393, 0x59492053594C4C41424C45205252595220),
  (0xA394, 0x59492053594C4C41424C45204E52415420),
  (0xA395, 0x59492053594C4C41424C45204E52415820),
  (0xA396, 0x59492053594C4C41424C45204E524120),
  (0xA397, 0x59492053594C4C41424C45204E52415020),
  (0xA398, 0x59492053594C4C41424C45204E524F5820),
  (0xA399, 0x59492053594C4C41424C45204E524F20),
  (0xA39A, 0x59492053594C4C41424C45204E524F5020),
  (0xA39B, 0x59492053594C4C41424C45204E52455420),
  (0xA39C, 0x59492053594C4C41424C45204E52455820),
  (0xA39D, 0x59492053594C4C41424C45204E524520),
  (0xA39E, 0x59492053594C4C41424C45204E52455020),
  (0xA39F, 0x59492053594C4C41424C45204E52555420),
  (0xA3A0, 0x59492053594C4C41424C45204E52555820),
  (0xA3A1, 0x59492053594C4C41424C45204E525520),
  (0xA3A2, 0x59492053594C4C41424C45204E52555020),
  (0xA3A3, 0x59492053594C4C41424C45204E5255525820),
  (0xA3A4, 0x59492053594C4C41424C45204E52555220),
  (0xA3A5, 0x59492053594C4C41424C45204E52595420),
  (0xA3A6, 0x59492053594C4C41424C45204E52595820),
  (0xA3A7, 0x59492053594C4C41424C45204E525920),
  (0xA3A8, 0x59492053594C4C41424C45204E52595020),
  (0xA3A9, 0x59492053594C4C41424C45204E5259525820),
  (0xA3AA, 0x59492053594C4C41424C45204E52595220),
  (0xA3AB, 0x59492053594C4C41424C45205348415420),
  (0xA3AC, 0x59492053594C4C41424C45205348415820),
  (0xA3AD, 0x59492053594C4C41424C452053484120)]
def names_202 : List (Nat × Nat) := [
  (0xA3AE, 0x59492053594C4C41424C45205348415020),
  (0xA3AF, 0x59492053594C4C41424C45205348554F5820),
  (0xA3B0, 0x59492053594C4C41424C45205348554F20),
  (0xA3B1, 0x59492053594C4C41424C45205348554F5020),
  (0xA3B2, 0x59492053594C4C41424C452053484F5420),
  (0xA3B3, 0x59492053594C4C41424C452053484F5820),
  (0xA3B4, 0x59492053594C4C41424C452053484F20),
  (0xA3B5, 0x59492053594C4C41424C452053484F5020),
  (0xA3B6, 0x59492053594C4C41424C45205348455420),
  (0xA3B7, 0x59492053594C4C41424C45205348455820),
  (0xA3B8, 0x59492053594C4C41424C452053484520),
  (0xA3B9, 0x59492053594C4C41424C45205348455020),
  (0xA3BA, 0x59492053594C4C41424C45205348555420),
  (0xA3BB, 0x59492053594C4C41424C45205348555820),
  (0xA3BC, 0x59492053594C4C41424C452053485520),
  (0xA3BD, 0x59492053594C4C41424C45205348555020),
  (0xA3BE, 0x59492053594C4C41424C4520534855525820),
  (0xA3BF, 0x59492053594C4C41424C45205348555220),
  (0xA3C0, 0x59492053594C4C41424C45205348595420),
  (0xA3C1, 0x59492053594C4C41424C45205348595820),
  (0xA3C2, 0x59492053594C4C41424C452053485920),
  (0xA3C3, 0x59492053594C4C41424C45205348595020),
  (0xA3C4, 0x59492053594C4C41424C4520534859525820),
  (0xA3C5, 0x59492053594C4C41424C45205348595220),
  (0xA3C6, 0x59492053594C4C41424C452052415420),
  (0xA3C7, 0x59492053594C4C41424C452052415820),
  (0xA3C8, 0x59492053594C4C41424C4520524120),
  (0xA3C9, 0x59492053594C4C41424C452052415020),
  (0xA3CA, 0x59492053594C4C41424C452052554F5820),
  (0xA3CB, 0x59492053594C4C41424C452052554F20),
  (0xA3CC, 0x59492053594C4C41424C452052554F5020),
  (0xA3CD, 0x59492053594C4C41424C4520524F5420),
  (0xA3CE, 0x59492053594C4C41424C4520524F5820),
  (0xA3CF, 0x59492053594C4C41424C4520524F20),
  (0xA3D0, 0x59492053594C4C41424C4520524F5020),
  (0xA3D1, 0x59492053594C4C41424C452052455820),
  (0xA3D2, 0x59492053594C4C41424C4520524520),
  (0xA3D3, 0x59492053594C4C41424C452052455020),
  (0xA3D4, 0x59492053594C4C41424C452052555420),
  (0xA3D5, 0x59492053594C4C41424C452052555820),
  (0xA3D6, 0x59492053594C4C41424C4520525520),
  (0xA3D7, 0x59492053594C4C41424C452052555020),
  (0xA3D8, 0x59492053594C4C41424C45205255525820),
  (0xA3D9, 0x59492053594C4C41424C452052555220),
  (0xA3DA, 0x59492053594C4C41424C452052595420),
  (0xA3DB, 0x59492053594C4C41424C452052595820),
  (0xA3DC, 0x59492053594C4C41424C4520525920),
  (0xA3DD, 0x59492053594C4C41424C452052595020),
  (0xA3DE, 0x59492053594C4C41424C45205259525820),
  (0xA3DF, 0x59492053594C4C41424C452052595220),
  (0xA3E0, 0x59492053594C4C41424C45204A495420),
  (0xA3E1, 0x59492053594C4C41424C45204A495820),
  (0xA3E2, 0x59492053594C4C41424C45204A4920),
  (0xA3E3, 0x59492053594C4C41424C45204A495020),
  (0xA3E4, 0x59492053594C4C41424C45204A49455420),
  (0xA3E5, 0x59492053594C4C41424C45204A49455820),
  (0xA3E6, 0x59492053594C4C41424C45204A494520),
  (0xA3E7, 0x59492053594C4C41424C45204A49455020),
  (0xA3E8, 0x59492053594C4C41424C45204A554F5420),
  (0xA3E9, 0x59492053594C4C41424C45204A554F5820),
  (0xA3EA, 0x59492053594C4C41424C45204A554F20),
  (0xA3EB, 0x59492053594C4C41424C45204A554F5020),
  (0xA3EC, 0x59492053594C4C41424C45204A4F5420),
  (0xA3ED, 0x59492053594C4C41424C45204A4F5820)]
def names_203 : List (Nat × Nat) := [
  (0xA3EE, 0x59492053594C4C41424C45204A4F20),
  (0xA3EF, 0x59492053594C4C41424C45204A4F5020),
  (0xA3F0, 0x59492053594C4C41424C45204A555420),
  (0xA3F1, 0x59492053594C4C41424C45204A555820),
  (0xA3F2, 0x59492053594C4C41424C45204A5520),
  (0xA3F3, 0x59492053594C4C41424C45204A555020),
  (0xA3F4, 0x59492053594C4C41424C45204A55525820),
  (0xA3F5, 0x59492053594C4C41424C45204A555220),
  (0xA3F6, 0x59492053594C4C41424C45204A595420),
  (0xA3F7, 0x59492053594C4C41424C45204A595820),
  (0xA3F8, 0x59492053594C4C41424C45204A5920),
  (0xA3F9, 0x59492053594C4C41424C45204A595020),
  (0xA3FA, 0x59492053594C4C41424C45204A59525820),
  (0xA3FB, 0x59492053594C4C41424C45204A595220),
  (0xA3FC, 0x59492053594C4C41424C452051495420),
  (0xA3FD, 0x59492053594C4C41424C452051495820),
  (0xA3FE, 0x59492053594C4C41424C4520514920),
  (0xA3FF, 0x59492053594C4C41424C452051495020),
  (0xA400, 0x59492053594C4C41424C45205149455420),
  (0xA401, 0x59492053594C4C41424C45205149455820),
  (0xA402, 0x59492053594C4C41424C452051494520),
  (0xA403, 0x59492053594C4C41424C45205149455020),
  (0xA404, 0x59492053594C4C41424C452051554F5420),
  (0xA405, 0x59492053594C4C41424C452051554F5820),
  (0xA406, 0x59492053594C4C41424C452051554F20),
  (0xA407, 0x59492053594C4C41424C452051554F5020),
  (0xA408, 0x59492053594C4C41424C4520514F5420),
  (0xA409, 0x59492053594C4C41424C4520514F5820),
  (0xA40A, 0x59492053594C4C41424C4520514F20),
  (0xA40B, 0x59492053594C4C41424C4520514F5020),
  (0xA40C, 0x59492053594C4C41424C452051555420),
  (0xA40D, 0x59492053594C4C41424C452051555820),
  (0xA40E, 0x59492053594C4C41424C4520515520),
  (0xA40F, 0x59492053594C4C41424C452051555020),
  (0xA410, 0x59492053594C4C41424C45205155525820),
  (0xA411, 0x59492053594C4C41424C452051555220),
  (0xA412, 0x59492053594C4C41424C452051595420),
  (0xA413, 0x59492053594C4C41424C452051595820),
  (0xA414, 0x59492053594C4C41424C4520515920),
  (0xA415, 0x59492053594C4C41424C452051595020),
  (0xA416, 0x59492053594C4C41424C45205159525820),
  (0xA417, 0x59492053594C4C41424C452051595220),
  (0xA418, 0x59492053594C4C41424C45204A4A495420),
  (0xA419, 0x59492053594C4C41424C45204A4A495820),
  (0xA41A, 0x59492053594C4C41424C45204A4A4920),
  (0xA41B, 0x59492053594C4C41424C45204A4A495020),
  (0xA41C, 0x59492053594C4C41424C45204A4A49455420),
  (0xA41D, 0x59492053594C4C41424C45204A4A49455820),
  (0xA41E, 0x59492053594C4C41424C45204A4A494520),
  (0xA41F, 0x59492053594C4C41424C45204A4A49455020),
  (0xA420, 0x59492053594C4C41424C45204A4A554F5820),
  (0xA421, 0x59492053594C4C41424C45204A4A554F20),
  (0xA422, 0x59492053594C4C41424C45204A4A554F5020),
  (0xA423, 0x59492053594C4C41424C45204A4A4F5420),
  (0xA424, 0x59492053594C4C41424C45204A4A4F5820),
  (0xA425, 0x59492053594C4C41424C45204A4A4F20),
  (0xA426, 0x59492053594C4C41424C45204A4A4F5020),
  (0xA427, 0x59492053594C4C41424C45204A4A555420),
  (0xA428, 0x59492053594C4C41424C45204A4A555820),
  (0xA429, 0x59492053594C4C41424C45204A4A5520),
  (0xA42A, 0x59492053594C4C41424C45204A4A555020),
  (0xA42B, 0x59492053594C4C41424C45204A4A55525820),
  (0xA42C, 0x59492053594C4C41424C45204A4A555220),
  (0xA42D, 0x59492053594C4C41424C45204A4A595420)]
def names_204 : List (Nat × Nat) := [
  (0xA42E, 0x59492053594C4C41424C45204A4A595820),
  (0xA42F, 0x59492053594C4C41424C45204A4A5920),
  (0xA430, 0x59492053594C4C41424C45204A4A595020),
  (0xA431, 0x59492053594C4C41424C45204E4A495420),
  (0xA432, 0x59492053594C4C41424C45204E4A495820),
  (0xA433, 0x59492053594C4C41424C45204E4A4920),
  (0xA434, 0x59492053594C4C41424C45204E4A495020),
  (0xA435, 0x59492053594C4C41424C45204E4A49455420),
  (0xA436, 0x59492053594C4C41424C45204E4A49455820),
  (0xA437, 0x59492053594C4C41424C45204E4A494520),
  (0xA438, 0x59492053594C4C41424C45204E4A49455020),
  (0xA439, 0x59492053594C4C41424C45204E4A554F5820),
  (0xA43A, 0x59492053594C4C41424C45204E4A554F20),
  (0xA43B, 0x59492053594C4C41424C45204E4A4F5420),
  (0xA43C, 0x59492053594C4C41424C45204E4A4F5820),
  (0xA43D, 0x59492053594C4C41424C45204E4A4F20),
  (0xA43E, 0x59492053594C4C41424C45204E4A4F5020),
  (0xA43F, 0x59492053594C4C41424C45204E4A555820),
  (0xA440, 0x59492053594C4C41424C45204E4A5520),
  (0xA441, 0x59492053594C4C41424C45204E4A555020),
  (0xA442, 0x59492053594C4C41424C45204E4A55525820),
  (0xA443, 0x59492053594C4C41424C45204E4A555220),
  (0xA444, 0x59492053594C4C41424C45204E4A595420),
  (0xA445, 0x59492053594C4C41424C45204E4A595820),
  (0xA446, 0x59492053594C4C41424C45204E4A5920),
  (0xA447, 0x59492053594C4C41424C45204E4A595020),
  (0xA448, 0x59492053594C4C41424C45204E4A59525820),
  (0xA449, 0x59492053594C4C41424C45204E4A595220),
  (0xA44A, 0x59492053594C4C41424C45204E59495420),
  (0xA44B, 0x59492053594C4C41424C45204E59495820),
  (0xA44C, 0x59492053594C4C41424C45204E594920),
  (0xA44D, 0x59492053594C4C41424C45204E59495020),
  (0xA44E, 0x59492053594C4C41424C45204E5949455420),
  (0xA44F, 0x59492053594C4C41424C45204E5949455820),
  (0xA450, 0x59492053594C4C41424C45204E59494520),
  (0xA451, 0x59492053594C4C41424C45204E5949455020),
  (0xA452, 0x59492053594C4C41424C45204E59554F5820),
  (0xA453, 0x59492053594C4C41424C45204E59554F20),
  (0xA454, 0x59492053594C4C41424C45204E59554F5020),
  (0xA455, 0x59492053594C4C41424C45204E594F5420),
  (0xA456, 0x59492053594C4C41424C45204E594F5820),
  (0xA457, 0x59492053594C4C41424C45204E594F20),
  (0xA458, 0x59492053594C4C41424C45204E594F5020),
  (0xA459, 0x59492053594C4C41424C45204E59555420),
  (0xA45A, 0x59492053594C4C41424C45204E59555820),
  (0xA45B, 0x59492053594C4C41424C45204E595520),
  (0xA45C, 0x59492053594C4C41424C45204E59555020),
  (0xA45D, 0x59492053594C4C41424C452058495420),
  (0xA45E, 0x59492053594C4C41424C452058495820),
  (0xA45F, 0x59492053594C4C41424C4520584920),
  (0xA460, 0x59492053594C4C41424C452058495020),
  (0xA461, 0x59492053594C4C41424C45205849455420),
  (0xA462, 0x59492053594C4C41424C45205849455820),
  (0xA463, 0x59492053594C4C41424C452058494520),
  (0xA464, 0x59492053594C4C41424C45205849455020),
  (0xA465, 0x59492053594C4C41424C452058554F5820),
  (0xA466, 0x59492053594C4C41424C452058554F20),
  (0xA467, 0x59492053594C4C41424C4520584F5420),
  (0xA468, 0x59492053594C4C41424C4520584F5820),
  (0xA469, 0x59492053594C4C41424C4520584F20),
  (0xA46A, 0x59492053594C4C41424C4520584F5020),
  (0xA46B, 0x59492053594C4C41424C452058595420),
  (0xA46C, 0x59492053594C4C41424C452058595820),
  (0xA46D, 0x59492053594C4C41424C4520585920)]
def names_205 : List (Nat × Nat) := [
  (0xA46E, 0x59492053594C4C41424C452058595020),
  (0xA46F, 0x59492053594C4C41424C45205859525820),
  (0xA470, 0x59492053594C4C41424C452058595220),
  (0xA471, 0x59492053594C4C41424C452059495420),
  (0xA472, 0x59492053594C4C41424C452059495820),
  (0xA473, 0x59492053594C4C41424C4520594920),
  (0xA474, 0x59492053594C4C41424C452059495020),
  (0xA475, 0x59492053594C4C41424C45205949455420),
  (0xA476, 0x59492053594C4C41424C45205949455820),
  (0xA477, 0x59492053594C4C41424C452059494520),
  (0xA478, 0x59492053594C4C41424C45205949455020),
  (0xA479, 0x59492053594C4C41424C452059554F5420),
  (0xA47A, 0x59492053594C4C41424C452059554F5820),
  (0xA47B, 0x59492053594C4C41424C452059554F20),
  (0xA47C, 0x59492053594C4C41424C452059554F5020),
  (0xA47D, 0x59492053594C4C41424C4520594F5420),
  (0xA47E, 0x59492053594C4C41424C4520594F5820),
  (0xA47F, 0x59492053594C4C41424C4520594F20),
  (0xA480, 0x59492053594C4C41424C4520594F5020),
  (0xA481, 0x59492053594C4C41424C452059555420),
  (0xA482, 0x59492053594C4C41424C452059555820),
  (0xA483, 0x59492053594C4C41424C4520595520),
  (0xA484, 0x59492053594C4C41424C452059555020),
  (0xA485, 0x59492053594C4C41424C45205955525820),
  (0xA486, 0x59492053594C4C41424C452059555220),
  (0xA487, 0x59492053594C4C41424C452059595420),
  (0xA488, 0x59492053594C4C41424C452059595820),
  (0xA489, 0x59492053594C4C41424C4520595920),
  (0xA48A, 0x59492053594C4C41424C452059595020),
  (0xA48B, 0x59492053594C4C41424C45205959525820),
  (0xA48C, 0x59492053594C4C41424C452059595220),
  (0xA490, 0x5949205241444943414C20514F5420),
  (0xA491, 0x5949205241444943414C204C4920),
  (0xA492, 0x5949205241444943414C204B495420),
  (0xA493, 0x5949205241444943414C204E59495020),
  (0xA494, 0x5949205241444943414C2043595020),
  (0xA495, 0x5949205241444943414C2053534920),
  (0xA496, 0x5949205241444943414C2047474F5020),
  (0xA497, 0x5949205241444943414C2047455020),
  (0xA498, 0x5949205241444943414C204D4920),
  (0xA499, 0x5949205241444943414C204858495420),
  (0xA49A, 0x5949205241444943414C204C595220),
  (0xA49B, 0x5949205241444943414C204242555420),
  (0xA49C, 0x5949205241444943414C204D4F5020),
  (0xA49D, 0x5949205241444943414C20594F20),
  (0xA49E, 0x5949205241444943414C2050555420),
  (0xA49F, 0x5949205241444943414C204858554F20),
  (0xA4A0, 0x5949205241444943414C2054415420),
  (0xA4A1, 0x5949205241444943414C20474120),
  (0xA4A2, 0x5949205241444943414C205A555020),
  (0xA4A3, 0x5949205241444943414C2043595420),
  (0xA4A4, 0x5949205241444943414C204444555220),
  (0xA4A5, 0x5949205241444943414C2042555220),
  (0xA4A6, 0x5949205241444943414C204747554F20),
  (0xA4A7, 0x5949205241444943414C204E594F5020),
  (0xA4A8, 0x5949205241444943414C20545520),
  (0xA4A9, 0x5949205241444943414C204F5020),
  (0xA4AA, 0x5949205241444943414C204A4A555420),
  (0xA4AB, 0x5949205241444943414C205A4F5420),
  (0xA4AC, 0x5949205241444943414C2050595420),
  (0xA4AD, 0x5949205241444943414C20484D4F20),
  (0xA4AE, 0x5949205241444943414C2059495420),
  (0xA4AF, 0x5949205241444943414C2056555220),
  (0xA4B0, 0x5949205241444943414C2053485920)]
def names_206 : List (Nat × Nat) := [
  (0xA4B1, 0x5949205241444943414C2056455020),
  (0xA4B2, 0x5949205241444943414C205A4120),
  (0xA4B3, 0x5949205241444943414C204A4F20),
  (0xA4B4, 0x5949205241444943414C204E5A555020),
  (0xA4B5, 0x5949205241444943414C204A4A5920),
  (0xA4B6, 0x5949205241444943414C20474F5420),
  (0xA4B7, 0x5949205241444943414C204A4A494520),
  (0xA4B8, 0x5949205241444943414C20574F20),
  (0xA4B9, 0x5949205241444943414C20445520),
  (0xA4BA, 0x5949205241444943414C205348555220),
  (0xA4BB, 0x5949205241444943414C204C494520),
  (0xA4BC, 0x5949205241444943414C20435920),
  (0xA4BD, 0x5949205241444943414C2043554F5020),
  (0xA4BE, 0x5949205241444943414C2043495020),
  (0xA4BF, 0x5949205241444943414C2048584F5020),
  (0xA4C0, 0x5949205241444943414C205348415420),
  (0xA4C1, 0x5949205241444943414C205A555220),
  (0xA4C2, 0x5949205241444943414C2053484F5020),
  (0xA4C3, 0x5949205241444943414C2043484520),
  (0xA4C4, 0x5949205241444943414C205A5A49455420),
  (0xA4C5, 0x5949205241444943414C204E42494520),
  (0xA4C6, 0x5949205241444943414C204B4520),
  (0xA4D0, 0x4C495355204C455454455220424120),
  (0xA4D1, 0x4C495355204C455454455220504120),
  (0xA4D2, 0x4C495355204C45545445522050484120),
  (0xA4D3, 0x4C495355204C455454455220444120),
  (0xA4D4, 0x4C495355204C455454455220544120),
  (0xA4D5, 0x4C495355204C45545445522054484120),
  (0xA4D6, 0x4C495355204C455454455220474120),
  (0xA4D7, 0x4C495355204C4554544552204B4120),
  (0xA4D8, 0x4C495355204C4554544552204B484120),
  (0xA4D9, 0x4C495355204C4554544552204A4120),
  (0xA4DA, 0x4C495355204C455454455220434120),
  (0xA4DB, 0x4C495355204C45545445522043484120),
  (0xA4DC, 0x4C495355204C455454455220445A4120),
  (0xA4DD, 0x4C495355204C45545445522054534120),
  (0xA4DE, 0x4C495355204C4554544552205453484120),
  (0xA4DF, 0x4C495355204C4554544552204D4120),
  (0xA4E0, 0x4C495355204C4554544552204E4120),
  (0xA4E1, 0x4C495355204C4554544552204C4120),
  (0xA4E2, 0x4C495355204C455454455220534120),
  (0xA4E3, 0x4C495355204C4554544552205A484120),
  (0xA4E4, 0x4C495355204C4554544552205A4120),
  (0xA4E5, 0x4C495355204C4554544552204E474120),
  (0xA4E6, 0x4C495355204C455454455220484120),
  (0xA4E7, 0x4C495355204C455454455220584120),
  (0xA4E8, 0x4C495355204C45545445522048484120),
  (0xA4E9, 0x4C495355204C455454455220464120),
  (0xA4EA, 0x4C495355204C455454455220574120),
  (0xA4EB, 0x4C495355204C45545445522053484120),
  (0xA4EC, 0x4C495355204C455454455220594120),
  (0xA4ED, 0x4C495355204C45545445522047484120),
  (0xA4EE, 0x4C495355204C4554544552204120),
  (0xA4EF, 0x4C495355204C455454455220414520),
  (0xA4F0, 0x4C495355204C4554544552204520),
  (0xA4F1, 0x4C495355204C455454455220455520),
  (0xA4F2, 0x4C495355204C4554544552204920),
  (0xA4F3, 0x4C495355204C4554544552204F20),
  (0xA4F4, 0x4C495355204C4554544552205520),
  (0xA4F5, 0x4C495355204C455454455220554520),
  (0xA4F6, 0x4C495355204C455454455220554820),
  (0xA4F7, 0x4C495355204C4554544552204F4520),
  (0xA4F8, 0x4C495355204C455454455220544F4E45204D594120544920),
  (0xA4F9, 0x4C495355204C455454455220544F4E45204E4120504F20)]
def names_207 : List (Nat × Nat) := [
  (0xA4FA, 0x4C495355204C455454455220544F4E45204D59412043594120),
  (0xA4FB, 0x4C495355204C455454455220544F4E45204D594120424F20),
  (0xA4FC, 0x4C495355204C455454455220544F4E45204D5941204E4120),
  (0xA4FD, 0x4C495355204C455454455220544F4E45204D5941204A455520),
  (0xA4FE, 0x4C4953552050554E4354554154494F4E20434F4D4D4120),
  (0xA4FF, 0x4C4953552050554E4354554154494F4E2046554C4C2053544F5020),
  (0xA500, 0x5641492053594C4C41424C4520454520),
  (0xA501, 0x5641492053594C4C41424C452045454E20),
  (0xA502, 0x5641492053594C4C41424C452048454520),
  (0xA503, 0x5641492053594C4C41424C452057454520),
  (0xA504, 0x5641492053594C4C41424C45205745454E20),
  (0xA505, 0x5641492053594C4C41424C452050454520),
  (0xA506, 0x5641492053594C4C41424C45204248454520),
  (0xA507, 0x5641492053594C4C41424C452042454520),
  (0xA508, 0x5641492053594C4C41424C45204D42454520),
  (0xA509, 0x5641492053594C4C41424C45204B50454520),
  (0xA50A, 0x5641492053594C4C41424C45204D4742454520),
  (0xA50B, 0x5641492053594C4C41424C45204742454520),
  (0xA50C, 0x5641492053594C4C41424C452046454520),
  (0xA50D, 0x5641492053594C4C41424C452056454520),
  (0xA50E, 0x5641492053594C4C41424C452054454520),
  (0xA50F, 0x5641492053594C4C41424C45205448454520),
  (0xA510, 0x5641492053594C4C41424C45204448454520),
  (0xA511, 0x5641492053594C4C41424C4520444848454520),
  (0xA512, 0x5641492053594C4C41424C45204C454520),
  (0xA513, 0x5641492053594C4C41424C452052454520),
  (0xA514, 0x5641492053594C4C41424C452044454520),
  (0xA515, 0x5641492053594C4C41424C45204E44454520),
  (0xA516, 0x5641492053594C4C41424C452053454520),
  (0xA517, 0x5641492053594C4C41424C45205348454520),
  (0xA518, 0x5641492053594C4C41424C45205A454520),
  (0xA519, 0x5641492053594C4C41424C45205A48454520),
  (0xA51A, 0x5641492053594C4C41424C452043454520),
  (0xA51B, 0x5641492053594C4C41424C45204A454520),
  (0xA51C, 0x5641492053594C4C41424C45204E4A454520),
  (0xA51D, 0x5641492053594C4C41424C452059454520),
  (0xA51E, 0x5641492053594C4C41424C45204B454520),
  (0xA51F, 0x5641492053594C4C41424C45204E4747454520),
  (0xA520, 0x5641492053594C4C41424C452047454520),
  (0xA521, 0x5641492053594C4C41424C45204D454520),
  (0xA522, 0x5641492053594C4C41424C45204E454520),
  (0xA523, 0x5641492053594C4C41424C45204E59454520),
  (0xA524, 0x5641492053594C4C41424C45204920),
  (0xA525, 0x5641492053594C4C41424C4520494E20),
  (0xA526, 0x5641492053594C4C41424C4520484920),
  (0xA527, 0x5641492053594C4C41424C452048494E20),
  (0xA528, 0x5641492053594C4C41424C4520574920),
  (0xA529, 0x5641492053594C4C41424C452057494E20),
  (0xA52A, 0x5641492053594C4C41424C4520504920),
  (0xA52B, 0x5641492053594C4C41424C452042484920),
  (0xA52C, 0x5641492053594C4C41424C4520424920),
  (0xA52D, 0x5641492053594C4C41424C45204D424920),
  (0xA52E, 0x5641492053594C4C41424C45204B504920),
  (0xA52F, 0x5641492053594C4C41424C45204D47424920),
  (0xA530, 0x5641492053594C4C41424C452047424920),
  (0xA531, 0x5641492053594C4C41424C4520464920),
  (0xA532, 0x5641492053594C4C41424C4520564920),
  (0xA533, 0x5641492053594C4C41424C4520544920),
  (0xA534, 0x5641492053594C4C41424C452054484920),
  (0xA535, 0x5641492053594C4C41424C452044484920),
  (0xA536, 0x5641492053594C4C41424C45204448484920),
  (0xA537, 0x5641492053594C4C41424C45204C4920),
  (0xA538, 0x5641492053594C4C41424C4520524920),
  (0xA539, 0x5641492053594C4C41424C4520444920)]
def names_208 : List (Nat × Nat) := [
  (0xA53A, 0x5641492053594C4C41424C45204E444920),
  (0xA53B, 0x5641492053594C4C41424C4520534920),
  (0xA53C, 0x5641492053594C4C41424C452053484920),
  (0xA53D, 0x5641492053594C4C41424C45205A4920),
  (0xA53E, 0x5641492053594C4C41424C45205A484920),
  (0xA53F, 0x5641492053594C4C41424C4520434920),
  (0xA540, 0x5641492053594C4C41424C45204A4920),
  (0xA541, 0x5641492053594C4C41424C45204E4A4920),
  (0xA542, 0x5641492053594C4C41424C4520594920),
  (0xA543, 0x5641492053594C4C41424C45204B4920),
  (0xA544, 0x5641492053594C4C41424C45204E47474920),
  (0xA545, 0x5641492053594C4C41424C4520474920),
  (0xA546, 0x5641492053594C4C41424C45204D4920),
  (0xA547, 0x5641492053594C4C41424C45204E4920),
  (0xA548, 0x5641492053594C4C41424C45204E594920),
  (0xA549, 0x5641492053594C4C41424C45204120),
  (0xA54A, 0x5641492053594C4C41424C4520414E20),
  (0xA54B, 0x5641492053594C4C41424C45204E47414E20),
  (0xA54C, 0x5641492053594C4C41424C4520484120),
  (0xA54D, 0x5641492053594C4C41424C452048414E20),
  (0xA54E, 0x5641492053594C4C41424C4520574120),
  (0xA54F, 0x5641492053594C4C41424C452057414E20),
  (0xA550, 0x5641492053594C4C41424C4520504120),
  (0xA551, 0x5641492053594C4C41424C452042484120),
  (0xA552, 0x5641492053594C4C41424C4520424120),
  (0xA553, 0x5641492053594C4C41424C45204D424120),
  (0xA554, 0x5641492053594C4C41424C45204B504120),
  (0xA555, 0x5641492053594C4C41424C45204B50414E20),
  (0xA556, 0x5641492053594C4C41424C45204D47424120),
  (0xA557, 0x5641492053594C4C41424C452047424120),
  (0xA558, 0x5641492053594C4C41424C4520464120),
  (0xA559, 0x5641492053594C4C41424C4520564120),
  (0xA55A, 0x5641492053594C4C41424C4520544120),
  (0xA55B, 0x5641492053594C4C41424C452054484120),
  (0xA55C, 0x5641492053594C4C41424C452044484120),
  (0xA55D, 0x5641492053594C4C41424C45204448484120),
  (0xA55E, 0x5641492053594C4C41424C45204C4120),
  (0xA55F, 0x5641492053594C4C41424C4520524120),
  (0xA560, 0x5641492053594C4C41424C4520444120),
  (0xA561, 0x5641492053594C4C41424C45204E444120),
  (0xA562, 0x5641492053594C4C41424C4520534120),
  (0xA563, 0x5641492053594C4C41424C452053484120),
  (0xA564, 0x5641492053594C4C41424C45205A4120),
  (0xA565, 0x5641492053594C4C41424C45205A484120),
  (0xA566, 0x5641492053594C4C41424C4520434120),
  (0xA567, 0x5641492053594C4C41424C45204A4120),
  (0xA568, 0x5641492053594C4C41424C45204E4A4120),
  (0xA569, 0x5641492053594C4C41424C4520594120),
  (0xA56A, 0x5641492053594C4C41424C45204B4120),
  (0xA56B, 0x5641492053594C4C41424C45204B414E20),
  (0xA56C, 0x5641492053594C4C41424C45204E47474120),
  (0xA56D, 0x5641492053594C4C41424C4520474120),
  (0xA56E, 0x5641492053594C4C41424C45204D4120),
  (0xA56F, 0x5641492053594C4C41424C45204E4120),
  (0xA570, 0x5641492053594C4C41424C45204E594120),
  (0xA571, 0x5641492053594C4C41424C45204F4F20),
  (0xA572, 0x5641492053594C4C41424C45204F4F4E20),
  (0xA573, 0x5641492053594C4C41424C4520484F4F20),
  (0xA574, 0x5641492053594C4C41424C4520574F4F20),
  (0xA575, 0x5641492053594C4C41424C4520574F4F4E20),
  (0xA576, 0x5641492053594C4C41424C4520504F4F20),
  (0xA577, 0x5641492053594C4C41424C452042484F4F20),
  (0xA578, 0x5641492053594C4C41424C4520424F4F20),
  (0xA579, 0x5641492053594C4C41424C45204D424F4F20)]
def names_209 : List (Nat × Nat) := [
  (0xA57A, 0x5641492053594C4C41424C45204B504F4F20),
  (0xA57B, 0x5641492053594C4C41424C45204D47424F4F20),
  (0xA57C, 0x5641492053594C4C41424C452047424F4F20),
  (0xA57D, 0x5641492053594C4C41424C4520464F4F20),
  (0xA57E, 0x5641492053594C4C41424C4520564F4F20),
  (0xA57F, 0x5641492053594C4C41424C4520544F4F20),
  (0xA580, 0x5641492053594C4C41424C452054484F4F20),
  (0xA581, 0x5641492053594C4C41424C452044484F4F20),
  (0xA582, 0x5641492053594C4C41424C45204448484F4F20),
  (0xA583, 0x5641492053594C4C41424C45204C4F4F20),
  (0xA584, 0x5641492053594C4C41424C4520524F4F20),
  (0xA585, 0x5641492053594C4C41424C4520444F4F20),
  (0xA586, 0x5641492053594C4C41424C45204E444F4F20),
  (0xA587, 0x5641492053594C4C41424C4520534F4F20),
  (0xA588, 0x5641492053594C4C41424C452053484F4F20),
  (0xA589, 0x5641492053594C4C41424C45205A4F4F20),
  (0xA58A, 0x5641492053594C4C41424C45205A484F4F20),
  (0xA58B, 0x5641492053594C4C41424C4520434F4F20),
  (0xA58C, 0x5641492053594C4C41424C45204A4F4F20),
  (0xA58D, 0x5641492053594C4C41424C45204E4A4F4F20),
  (0xA58E, 0x5641492053594C4C41424C4520594F4F20),
  (0xA58F, 0x5641492053594C4C41424C45204B4F4F20),
  (0xA590, 0x5641492053594C4C41424C45204E47474F4F20),
  (0xA591, 0x5641492053594C4C41424C4520474F4F20),
  (0xA592, 0x5641492053594C4C41424C45204D4F4F20),
  (0xA593, 0x5641492053594C4C41424C45204E4F4F20),
  (0xA594, 0x5641492053594C4C41424C45204E594F4F20),
  (0xA595, 0x5641492053594C4C41424C45205520),
  (0xA596, 0x5641492053594C4C41424C4520554E20),
  (0xA597, 0x5641492053594C4C41424C4520485520),
  (0xA598, 0x5641492053594C4C41424C452048554E20),
  (0xA599, 0x5641492053594C4C41424C4520575520),
  (0xA59A, 0x5641492053594C4C41424C452057554E20),
  (0xA59B, 0x5641492053594C4C41424C4520505520),
  (0xA59C, 0x5641492053594C4C41424C452042485520),
  (0xA59D, 0x5641492053594C4C41424C4520425520),
  (0xA59E, 0x5641492053594C4C41424C45204D425520),
  (0xA59F, 0x5641492053594C4C41424C45204B505520),
  (0xA5A0, 0x5641492053594C4C41424C45204D47425520),
  (0xA5A1, 0x5641492053594C4C41424C452047425520),
  (0xA5A2, 0x5641492053594C4C41424C4520465520),
  (0xA5A3, 0x5641492053594C4C41424C4520565520),
  (0xA5A4, 0x5641492053594C4C41424C4520545520),
  (0xA5A5, 0x5641492053594C4C41424C452054485520),
  (0xA5A6, 0x5641492053594C4C41424C452044485520),
  (0xA5A7, 0x5641492053594C4C41424C45204448485520),
  (0xA5A8, 0x5641492053594C4C41424C45204C5520),
  (0xA5A9, 0x5641492053594C4C41424C4520525520),
  (0xA5AA, 0x5641492053594C4C41424C4520445520),
  (0xA5AB, 0x5641492053594C4C41424C45204E445520),
  (0xA5AC, 0x5641492053594C4C41424C4520535520),
  (0xA5AD, 0x5641492053594C4C41424C452053485520),
  (0xA5AE, 0x5641492053594C4C41424C45205A5520),
  (0xA5AF, 0x5641492053594C4C41424C45205A485520),
  (0xA5B0, 0x5641492053594C4C41424C4520435520),
  (0xA5B1, 0x5641492053594C4C41424C45204A5520),
  (0xA5B2, 0x5641492053594C4C41424C45204E4A5520),
  (0xA5B3, 0x5641492053594C4C41424C4520595520),
  (0xA5B4, 0x5641492053594C4C41424C45204B5520),
  (0xA5B5, 0x5641492053594C4C41424C45204E47475520),
  (0xA5B6, 0x5641492053594C4C41424C4520475520),
  (0xA5B7, 0x5641492053594C4C41424C45204D5520),
  (0xA5B8, 0x5641492053594C4C41424C45204E5520),
  (0xA5B9, 0x5641492053594C4C41424C45204E595520)]
def names_210 : List (Nat × Nat) := [
  (0xA5BA, 0x5641492053594C4C41424C45204F20),
  (0xA5BB, 0x5641492053594C4C41424C45204F4E20),
  (0xA5BC, 0x5641492053594C4C41424C45204E474F4E20),
  (0xA5BD, 0x5641492053594C4C41424C4520484F20),
  (0xA5BE, 0x5641492053594C4C41424C4520484F4E20),
  (0xA5BF, 0x5641492053594C4C41424C4520574F20),
  (0xA5C0, 0x5641492053594C4C41424C4520574F4E20),
  (0xA5C1, 0x5641492053594C4C41424C4520504F20),
  (0xA5C2, 0x5641492053594C4C41424C452042484F20),
  (0xA5C3, 0x5641492053594C4C41424C4520424F20),
  (0xA5C4, 0x5641492053594C4C41424C45204D424F20),
  (0xA5C5, 0x5641492053594C4C41424C45204B504F20),
  (0xA5C6, 0x5641492053594C4C41424C45204D47424F20),
  (0xA5C7, 0x5641492053594C4C41424C452047424F20),
  (0xA5C8, 0x5641492053594C4C41424C452047424F4E20),
  (0xA5C9, 0x5641492053594C4C41424C4520464F20),
  (0xA5CA, 0x5641492053594C4C41424C4520564F20),
  (0xA5CB, 0x5641492053594C4C41424C4520544F20),
  (0xA5CC, 0x5641492053594C4C41424C452054484F20),
  (0xA5CD, 0x5641492053594C4C41424C452044484F20),
  (0xA5CE, 0x5641492053594C4C41424C45204448484F20),
  (0xA5CF, 0x5641492053594C4C41424C45204C4F20),
  (0xA5D0, 0x5641492053594C4C41424C4520524F20),
  (0xA5D1, 0x5641492053594C4C41424C4520444F20),
  (0xA5D2, 0x5641492053594C4C41424C45204E444F20),
  (0xA5D3, 0x5641492053594C4C41424C4520534F20),
  (0xA5D4, 0x5641492053594C4C41424C452053484F20),
  (0xA5D5, 0x5641492053594C4C41424C45205A4F20),
  (0xA5D6, 0x5641492053594C4C41424C45205A484F20),
  (0xA5D7, 0x5641492053594C4C41424C4520434F20),
  (0xA5D8, 0x5641492053594C4C41424C45204A4F20),
  (0xA5D9, 0x5641492053594C4C41424C45204E4A4F20),
  (0xA5DA, 0x5641492053594C4C41424C4520594F20),
  (0xA5DB, 0x5641492053594C4C41424C45204B4F20),
  (0xA5DC, 0x5641492053594C4C41424C45204E47474F20),
  (0xA5DD, 0x5641492053594C4C41424C4520474F20),
  (0xA5DE, 0x5641492053594C4C41424C45204D4F20),
  (0xA5DF, 0x5641492053594C4C41424C45204E4F20),
  (0xA5E0, 0x5641492053594C4C41424C45204E594F20),
  (0xA5E1, 0x5641492053594C4C41424C45204520),
  (0xA5E2, 0x5641492053594C4C41424C4520454E20),
  (0xA5E3, 0x5641492053594C4C41424C45204E47454E20),
  (0xA5E4, 0x5641492053594C4C41424C4520484520),
  (0xA5E5, 0x5641492053594C4C41424C452048454E20),
  (0xA5E6, 0x5641492053594C4C41424C4520574520),
  (0xA5E7, 0x5641492053594C4C41424C452057454E20),
  (0xA5E8, 0x5641492053594C4C41424C4520504520),
  (0xA5E9, 0x5641492053594C4C41424C452042484520),
  (0xA5EA, 0x5641492053594C4C41424C4520424520),
  (0xA5EB, 0x5641492053594C4C41424C45204D424520),
  (0xA5EC, 0x5641492053594C4C41424C45204B504520),
  (0xA5ED, 0x5641492053594C4C41424C45204B50454E20),
  (0xA5EE, 0x5641492053594C4C41424C45204D47424520),
  (0xA5EF, 0x5641492053594C4C41424C452047424520),
  (0xA5F0, 0x5641492053594C4C41424C45204742454E20),
  (0xA5F1, 0x5641492053594C4C41424C4520464520),
  (0xA5F2, 0x5641492053594C4C41424C4520564520),
  (0xA5F3, 0x5641492053594C4C41424C4520544520),
  (0xA5F4, 0x5641492053594C4C41424C452054484520),
  (0xA5F5, 0x5641492053594C4C41424C452044484520),
  (0xA5F6, 0x5641492053594C4C41424C45204448484520),
  (0xA5F7, 0x5641492053594C4C41424C45204C4520),
  (0xA5F8, 0x5641492053594C4C41424C4520524520),
  (0xA5F9, 0x5641492053594C4C41424C4520444520)]
def names_211 : List (Nat × Nat) := [
  (0xA5FA, 0x5641492053594C4C41424C45204E444520),
  (0xA5FB, 0x5641492053594C4C41424C4520534520),
  (0xA5FC, 0x5641492053594C4C41424C452053484520),
  (0xA5FD, 0x5641492053594C4C41424C45205A4520),
  (0xA5FE, 0x5641492053594C4C41424C45205A484520),
  (0xA5FF, 0x5641492053594C4C41424C4520434520),
  (0xA600, 0x5641492053594C4C41424C45204A4520),
  (0xA601, 0x5641492053594C4C41424C45204E4A4520),
  (0xA602, 0x5641492053594C4C41424C4520594520),
  (0xA603, 0x5641492053594C4C41424C45204B4520),
  (0xA604, 0x5641492053594C4C41424C45204E47474520),
  (0xA605, 0x5641492053594C4C41424C45204E4747454E20),
  (0xA606, 0x5641492053594C4C41424C4520474520),
  (0xA607, 0x5641492053594C4C41424C452047454E20),
  (0xA608, 0x5641492053594C4C41424C45204D4520),
  (0xA609, 0x5641492053594C4C41424C45204E4520),
  (0xA60A, 0x5641492053594C4C41424C45204E594520),
  (0xA60B, 0x5641492053594C4C41424C45204E4720),
  (0xA60C, 0x5641492053594C4C41424C45204C454E475448454E455220),
  (0xA60D, 0x56414920434F4D4D4120),
  (0xA60E, 0x5641492046554C4C2053544F5020),
  (0xA60F, 0x564149205155455354494F4E204D41524B20),
  (0xA610, 0x5641492053594C4C41424C45204E444F4C4520464120),
  (0xA611, 0x5641492053594C4C41424C45204E444F4C45204B4120),
  (0xA612, 0x5641492053594C4C41424C45204E444F4C4520534F4F20),
  (0xA613, 0x5641492053594D424F4C204645454E4720),
  (0xA614, 0x5641492053594D424F4C204B45454E4720),
  (0xA615, 0x5641492053594D424F4C2054494E4720),
  (0xA616, 0x5641492053594D424F4C204E494920),
  (0xA617, 0x5641492053594D424F4C2042414E4720),
  (0xA618, 0x5641492053594D424F4C2046414120),
  (0xA619, 0x5641492053594D424F4C2054414120),
  (0xA61A, 0x5641492053594D424F4C2044414E4720),
  (0xA61B, 0x5641492053594D424F4C20444F4F4E4720),
  (0xA61C, 0x5641492053594D424F4C204B554E4720),
  (0xA61D, 0x5641492053594D424F4C20544F4E4720),
  (0xA61E, 0x5641492053594D424F4C20444F2D4F20),
  (0xA61F, 0x5641492053594D424F4C204A4F4E4720),
  (0xA620, 0x564149204449474954205A45524F20),
  (0xA621, 0x564149204449474954204F4E4520),
  (0xA622, 0x5641492044494749542054574F20),
  (0xA623, 0x56414920444947495420544852454520),
  (0xA624, 0x56414920444947495420464F555220),
  (0xA625, 0x564149204449474954204649564520),
  (0xA626, 0x5641492044494749542053495820),
  (0xA627, 0x56414920444947495420534556454E20),
  (0xA628, 0x56414920444947495420454947485420),
  (0xA629, 0x564149204449474954204E494E4520),
  (0xA62A, 0x5641492053594C4C41424C45204E444F4C45204D4120),
  (0xA62B, 0x5641492053594C4C41424C45204E444F4C4520444F20),
  (0xA640, 0x435952494C4C4943204341504954414C204C4554544552205A454D4C594120),
  (0xA641, 0x435952494C4C494320534D414C4C204C4554544552205A454D4C594120),
  (0xA642, 0x435952494C4C4943204341504954414C204C455454455220445A454C4F20),
  (0xA643, 0x435952494C4C494320534D414C4C204C455454455220445A454C4F20),
  (0xA644, 0x435952494C4C4943204341504954414C204C455454455220524556455253454420445A4520),
  (0xA645, 0x435952494C4C494320534D414C4C204C455454455220524556455253454420445A4520),
  (0xA646, 0x435952494C4C4943204341504954414C204C455454455220494F544120),
  (0xA647, 0x435952494C4C494320534D414C4C204C455454455220494F544120),
  (0xA648, 0x435952494C4C4943204341504954414C204C455454455220444A45525620),
  (0xA649, 0x435952494C4C494320534D414C4C204C455454455220444A45525620),
  (0xA64A, 0x435952494C4C4943204341504954414C204C4554544552204D4F4E4F475241504820554B20),
  (0xA64B, 0x435952494C4C494320534D414C4C204C4554544552204D4F4E4F475241504820554B20),
  (0xA64C, 0x435952494C4C4943204341504954414C204C45545445522042524F4144204F4D45474120),
  (0xA64D, 0x435952494C4C494320534D414C4C204C45545445522042524F4144204F4D45474120)]
def names_212 : List (Nat × Nat) := [
  (0xA64E, 0x435952494C4C4943204341504954414C204C4554544552204E45555452414C2059455220),
  (0xA64F, 0x435952494C4C494320534D414C4C204C4554544552204E45555452414C2059455220),
  (0xA650, 0x435952494C4C4943204341504954414C204C455454455220594552552057495448204241434B2059455220),
  (0xA651, 0x435952494C4C494320534D414C4C204C455454455220594552552057495448204241434B2059455220),
  (0xA652, 0x435952494C4C4943204341504954414C204C455454455220494F5449464945442059415420),
  (0xA653, 0x435952494C4C494320534D414C4C204C455454455220494F5449464945442059415420),
  (0xA654, 0x435952494C4C4943204341504954414C204C455454455220524556455253454420595520),
  (0xA655, 0x435952494C4C494320534D414C4C204C455454455220524556455253454420595520),
  (0xA656, 0x435952494C4C4943204341504954414C204C455454455220494F544946494544204120),
  (0xA657, 0x435952494C4C494320534D414C4C204C455454455220494F544946494544204120),
  (0xA658, 0x435952494C4C4943204341504954414C204C455454455220434C4F534544204C4954544C452059555320),
  (0xA659, 0x435952494C4C494320534D414C4C204C455454455220434C4F534544204C4954544C452059555320),
  (0xA65A, 0x435952494C4C4943204341504954414C204C455454455220424C454E4445442059555320),
  (0xA65B, 0x435952494C4C494320534D414C4C204C455454455220424C454E4445442059555320),
  (0xA65C, 0x435952494C4C4943204341504954414C204C455454455220494F54494649454420434C4F534544204C4954544C452059555320),
  (0xA65D, 0x435952494C4C494320534D414C4C204C455454455220494F54494649454420434C4F534544204C4954544C452059555320),
  (0xA65E, 0x435952494C4C4943204341504954414C204C455454455220594E20),
  (0xA65F, 0x435952494C4C494320534D414C4C204C455454455220594E20),
  (0xA660, 0x435952494C4C4943204341504954414C204C45545445522052455645525345442054534520),
  (0xA661, 0x435952494C4C494320534D414C4C204C45545445522052455645525345442054534520),
  (0xA662, 0x435952494C4C4943204341504954414C204C455454455220534F465420444520),
  (0xA663, 0x435952494C4C494320534D414C4C204C455454455220534F465420444520),
  (0xA664, 0x435952494C4C4943204341504954414C204C455454455220534F465420454C20),
  (0xA665, 0x435952494C4C494320534D414C4C204C455454455220534F465420454C20),
  (0xA666, 0x435952494C4C4943204341504954414C204C455454455220534F465420454D20),
  (0xA667, 0x435952494C4C494320534D414C4C204C455454455220534F465420454D20),
  (0xA668, 0x435952494C4C4943204341504954414C204C4554544552204D4F4E4F43554C4152204F20),
  (0xA669, 0x435952494C4C494320534D414C4C204C4554544552204D4F4E4F43554C4152204F20),
  (0xA66A, 0x435952494C4C4943204341504954414C204C45545445522042494E4F43554C4152204F20),
  (0xA66B, 0x435952494C4C494320534D414C4C204C45545445522042494E4F43554C4152204F20),
  (0xA66C, 0x435952494C4C4943204341504954414C204C455454455220444F55424C45204D4F4E4F43554C4152204F20),
  (0xA66D, 0x435952494C4C494320534D414C4C204C455454455220444F55424C45204D4F4E4F43554C4152204F20),
  (0xA66E, 0x435952494C4C4943204C4554544552204D554C54494F43554C4152204F20),
  (0xA66F, 0x434F4D42494E494E4720435952494C4C494320565A4D455420),
  (0xA670, 0x434F4D42494E494E4720435952494C4C49432054454E204D494C4C494F4E53205349474E20),
  (0xA671, 0x434F4D42494E494E4720435952494C4C49432048554E44524544204D494C4C494F4E53205349474E20),
  (0xA672, 0x434F4D42494E494E4720435952494C4C49432054484F5553414E44204D494C4C494F4E53205349474E20),
  (0xA673, 0x534C41564F4E494320415354455249534B20),
  (0xA674, 0x434F4D42494E494E4720435952494C4C4943204C455454455220554B5241494E49414E20494520),
  (0xA675, 0x434F4D42494E494E4720435952494C4C4943204C4554544552204920),
  (0xA676, 0x434F4D42494E494E4720435952494C4C4943204C455454455220594920),
  (0xA677, 0x434F4D42494E494E4720435952494C4C4943204C4554544552205520),
  (0xA678, 0x434F4D42494E494E4720435952494C4C4943204C45545445522048415244205349474E20),
  (0xA679, 0x434F4D42494E494E4720435952494C4C4943204C4554544552205945525520),
  (0xA67A, 0x434F4D42494E494E4720435952494C4C4943204C455454455220534F4654205349474E20),
  (0xA67B, 0x434F4D42494E494E4720435952494C4C4943204C4554544552204F4D45474120),
  (0xA67C, 0x434F4D42494E494E4720435952494C4C4943204B4156594B4120),
  (0xA67D, 0x434F4D42494E494E4720435952494C4C49432050415945524F4B20),
  (0xA67E, 0x435952494C4C4943204B4156594B4120),
  (0xA67F, 0x435952494C4C49432050415945524F4B20),
  (0xA680, 0x435952494C4C4943204341504954414C204C45545445522044574520),
  (0xA681, 0x435952494C4C494320534D414C4C204C45545445522044574520),
  (0xA682, 0x435952494C4C4943204341504954414C204C455454455220445A574520),
  (0xA683, 0x435952494C4C494320534D414C4C204C455454455220445A574520),
  (0xA684, 0x435952494C4C4943204341504954414C204C4554544552205A48574520),
  (0xA685, 0x435952494C4C494320534D414C4C204C4554544552205A48574520),
  (0xA686, 0x435952494C4C4943204341504954414C204C4554544552204343484520),
  (0xA687, 0x435952494C4C494320534D414C4C204C4554544552204343484520),
  (0xA688, 0x435952494C4C4943204341504954414C204C455454455220445A5A4520),
  (0xA689, 0x435952494C4C494320534D414C4C204C455454455220445A5A4520),
  (0xA68A, 0x435952494C4C4943204341504954414C204C45545445522054452057495448204D4944444C4520484F4F4B20),
  (0xA68B, 0x435952494C4C494320534D414C4C204C45545445522054452057495448204D4944444C4520484F4F4B20),
  (0xA68C, 0x435952494C4C4943204341504954414C204C45545445522054574520),
  (0xA68D, 0x435952494C4C494320534D414C4C204C45545445522054574520)]
def names_213 : List (Nat × Nat) := [
  (0xA68E, 0x435952494C4C4943204341504954414C204C4554544552205453574520),
  (0xA68F, 0x435952494C4C494320534D414C4C204C4554544552205453574520),
  (0xA690, 0x435952494C4C4943204341504954414C204C4554544552205453534520),
  (0xA691, 0x435952494C4C494320534D414C4C204C4554544552205453534520),
  (0xA692, 0x435952494C4C4943204341504954414C204C4554544552205443484520),
  (0xA693, 0x435952494C4C494320534D414C4C204C4554544552205443484520),
  (0xA694, 0x435952494C4C4943204341504954414C204C45545445522048574520),
  (0xA695, 0x435952494C4C494320534D414C4C204C45545445522048574520),
  (0xA696, 0x435952494C4C4943204341504954414C204C4554544552205348574520),
  (0xA697, 0x435952494C4C494320534D414C4C204C4554544552205348574520),
  (0xA698, 0x435952494C4C4943204341504954414C204C455454455220444F55424C45204F20),
  (0xA699, 0x435952494C4C494320534D414C4C204C455454455220444F55424C45204F20),
  (0xA69A, 0x435952494C4C4943204341504954414C204C45545445522043524F53534544204F20),
  (0xA69B, 0x435952494C4C494320534D414C4C204C45545445522043524F53534544204F20),
  (0xA69C, 0x4D4F444946494552204C455454455220435952494C4C49432048415244205349474E20),
  (0xA69D, 0x4D4F444946494552204C455454455220435952494C4C494320534F4654205349474E20),
  (0xA69E, 0x434F4D42494E494E4720435952494C4C4943204C455454455220454620),
  (0xA69F, 0x434F4D42494E494E4720435952494C4C4943204C455454455220494F544946494544204520),
  (0xA6A0, 0x42414D554D204C4554544552204120),
  (0xA6A1, 0x42414D554D204C4554544552204B4120),
  (0xA6A2, 0x42414D554D204C4554544552205520),
  (0xA6A3, 0x42414D554D204C4554544552204B5520),
  (0xA6A4, 0x42414D554D204C455454455220454520),
  (0xA6A5, 0x42414D554D204C45545445522052454520),
  (0xA6A6, 0x42414D554D204C45545445522054414520),
  (0xA6A7, 0x42414D554D204C4554544552204F20),
  (0xA6A8, 0x42414D554D204C4554544552204E594920),
  (0xA6A9, 0x42414D554D204C4554544552204920),
  (0xA6AA, 0x42414D554D204C4554544552204C4120),
  (0xA6AB, 0x42414D554D204C455454455220504120),
  (0xA6AC, 0x42414D554D204C45545445522052494920),
  (0xA6AD, 0x42414D554D204C4554544552205249454520),
  (0xA6AE, 0x42414D554D204C4554544552204C4545454520),
  (0xA6AF, 0x42414D554D204C4554544552204D4545454520),
  (0xA6B0, 0x42414D554D204C45545445522054414120),
  (0xA6B1, 0x42414D554D204C4554544552204E44414120),
  (0xA6B2, 0x42414D554D204C4554544552204E4A41454D20),
  (0xA6B3, 0x42414D554D204C4554544552204D20),
  (0xA6B4, 0x42414D554D204C45545445522053555520),
  (0xA6B5, 0x42414D554D204C4554544552204D5520),
  (0xA6B6, 0x42414D554D204C4554544552205348494920),
  (0xA6B7, 0x42414D554D204C455454455220534920),
  (0xA6B8, 0x42414D554D204C455454455220534845555820),
  (0xA6B9, 0x42414D554D204C4554544552205345555820),
  (0xA6BA, 0x42414D554D204C4554544552204B59454520),
  (0xA6BB, 0x42414D554D204C4554544552204B455420),
  (0xA6BC, 0x42414D554D204C4554544552204E55414520),
  (0xA6BD, 0x42414D554D204C4554544552204E5520),
  (0xA6BE, 0x42414D554D204C4554544552204E4A55414520),
  (0xA6BF, 0x42414D554D204C455454455220594F5120),
  (0xA6C0, 0x42414D554D204C45545445522053485520),
  (0xA6C1, 0x42414D554D204C45545445522059555120),
  (0xA6C2, 0x42414D554D204C455454455220594120),
  (0xA6C3, 0x42414D554D204C4554544552204E53484120),
  (0xA6C4, 0x42414D554D204C4554544552204B45555820),
  (0xA6C5, 0x42414D554D204C4554544552205045555820),
  (0xA6C6, 0x42414D554D204C4554544552204E4A454520),
  (0xA6C7, 0x42414D554D204C4554544552204E54454520),
  (0xA6C8, 0x42414D554D204C45545445522050554520),
  (0xA6C9, 0x42414D554D204C45545445522057554520),
  (0xA6CA, 0x42414D554D204C45545445522050454520),
  (0xA6CB, 0x42414D554D204C45545445522046454520),
  (0xA6CC, 0x42414D554D204C455454455220525520),
  (0xA6CD, 0x42414D554D204C4554544552204C5520)]
def names_214 : List (Nat × Nat) := [
  (0xA6CE, 0x42414D554D204C4554544552204D4920),
  (0xA6CF, 0x42414D554D204C4554544552204E4920),
  (0xA6D0, 0x42414D554D204C4554544552205245555820),
  (0xA6D1, 0x42414D554D204C45545445522052414520),
  (0xA6D2, 0x42414D554D204C4554544552204B454E20),
  (0xA6D3, 0x42414D554D204C4554544552204E474B5741454E20),
  (0xA6D4, 0x42414D554D204C4554544552204E47474120),
  (0xA6D5, 0x42414D554D204C4554544552204E474120),
  (0xA6D6, 0x42414D554D204C45545445522053484F20),
  (0xA6D7, 0x42414D554D204C4554544552205055414520),
  (0xA6D8, 0x42414D554D204C455454455220465520),
  (0xA6D9, 0x42414D554D204C455454455220464F4D20),
  (0xA6DA, 0x42414D554D204C455454455220574120),
  (0xA6DB, 0x42414D554D204C4554544552204E4120),
  (0xA6DC, 0x42414D554D204C4554544552204C4920),
  (0xA6DD, 0x42414D554D204C455454455220504920),
  (0xA6DE, 0x42414D554D204C4554544552204C4F5120),
  (0xA6DF, 0x42414D554D204C4554544552204B4F20),
  (0xA6E0, 0x42414D554D204C4554544552204D42454E20),
  (0xA6E1, 0x42414D554D204C45545445522052454E20),
  (0xA6E2, 0x42414D554D204C4554544552204D454E20),
  (0xA6E3, 0x42414D554D204C4554544552204D4120),
  (0xA6E4, 0x42414D554D204C455454455220544920),
  (0xA6E5, 0x42414D554D204C4554544552204B4920),
  (0xA6E6, 0x42414D554D204C4554544552204D4F20),
  (0xA6E7, 0x42414D554D204C4554544552204D42414120),
  (0xA6E8, 0x42414D554D204C45545445522054455420),
  (0xA6E9, 0x42414D554D204C4554544552204B504120),
  (0xA6EA, 0x42414D554D204C45545445522054454E20),
  (0xA6EB, 0x42414D554D204C4554544552204E54555520),
  (0xA6EC, 0x42414D554D204C45545445522053414D424120),
  (0xA6ED, 0x42414D554D204C4554544552204641414D414520),
  (0xA6EE, 0x42414D554D204C4554544552204B4F56555520),
  (0xA6EF, 0x42414D554D204C4554544552204B4F47484F4D20),
  (0xA6F0, 0x42414D554D20434F4D42494E494E47204D41524B204B4F514E444F4E20),
  (0xA6F1, 0x42414D554D20434F4D42494E494E47204D41524B2054554B57454E54495320),
  (0xA6F2, 0x42414D554D204E4A41454D4C4920),
  (0xA6F3, 0x42414D554D2046554C4C2053544F5020),
  (0xA6F4, 0x42414D554D20434F4C4F4E20),
  (0xA6F5, 0x42414D554D20434F4D4D4120),
  (0xA6F6, 0x42414D554D2053454D49434F4C4F4E20),
  (0xA6F7, 0x42414D554D205155455354494F4E204D41524B20),
  (0xA700, 0x4D4F444946494552204C4554544552204348494E45534520544F4E452059494E2050494E4720),
  (0xA701, 0x4D4F444946494552204C4554544552204348494E45534520544F4E452059414E472050494E4720),
  (0xA702, 0x4D4F444946494552204C4554544552204348494E45534520544F4E452059494E205348414E4720),
  (0xA703, 0x4D4F444946494552204C4554544552204348494E45534520544F4E452059414E47205348414E4720),
  (0xA704, 0x4D4F444946494552204C4554544552204348494E45534520544F4E452059494E20515520),
  (0xA705, 0x4D4F444946494552204C4554544552204348494E45534520544F4E452059414E4720515520),
  (0xA706, 0x4D4F444946494552204C4554544552204348494E45534520544F4E452059494E20525520),
  (0xA707, 0x4D4F444946494552204C4554544552204348494E45534520544F4E452059414E4720525520),
  (0xA708, 0x4D4F444946494552204C45545445522045585452412D4849474820444F5454454420544F4E452042415220),
  (0xA709, 0x4D4F444946494552204C4554544552204849474820444F5454454420544F4E452042415220),
  (0xA70A, 0x4D4F444946494552204C4554544552204D494420444F5454454420544F4E452042415220),
  (0xA70B, 0x4D4F444946494552204C4554544552204C4F5720444F5454454420544F4E452042415220),
  (0xA70C, 0x4D4F444946494552204C45545445522045585452412D4C4F5720444F5454454420544F4E452042415220),
  (0xA70D, 0x4D4F444946494552204C45545445522045585452412D4849474820444F54544544204C4546542D5354454D20544F4E452042415220),
  (0xA70E, 0x4D4F444946494552204C4554544552204849474820444F54544544204C4546542D5354454D20544F4E452042415220),
  (0xA70F, 0x4D4F444946494552204C4554544552204D494420444F54544544204C4546542D5354454D20544F4E452042415220),
  (0xA710, 0x4D4F444946494552204C4554544552204C4F5720444F54544544204C4546542D5354454D20544F4E452042415220),
  (0xA711, 0x4D4F444946494552204C45545445522045585452412D4C4F5720444F54544544204C4546542D5354454D20544F4E452042415220),
  (0xA712, 0x4D4F444946494552204C45545445522045585452412D48494748204C4546542D5354454D20544F4E452042415220),
  (0xA713, 0x4D4F444946494552204C45545445522048494748204C4546542D5354454D20544F4E452042415220),
  (0xA714, 0x4D4F444946494552204C4554544552204D4944204C4546542D5354454D20544F4E452042415220),
  (0xA715, 0x4D4F444946494552204C4554544552204C4F57204C4546542D5354454D20544F4E452042415220)]
def names_215 : List (Nat × Nat) := [
  (0xA716, 0x4D4F444946494552204C45545445522045585452412D4C4F57204C4546542D5354454D20544F4E452042415220),
  (0xA717, 0x4D4F444946494552204C455454455220444F5420564552544943414C2042415220),
  (0xA718, 0x4D4F444946494552204C455454455220444F5420534C41534820),
  (0xA719, 0x4D4F444946494552204C455454455220444F5420484F52495A4F4E54414C2042415220),
  (0xA71A, 0x4D4F444946494552204C4554544552204C4F57455220524947485420434F524E455220414E474C4520),
  (0xA71B, 0x4D4F444946494552204C455454455220524149534544205550204152524F5720),
  (0xA71C, 0x4D4F444946494552204C45545445522052414953454420444F574E204152524F5720),
  (0xA71D, 0x4D4F444946494552204C455454455220524149534544204558434C414D4154494F4E204D41524B20),
  (0xA71E, 0x4D4F444946494552204C45545445522052414953454420494E564552544544204558434C414D4154494F4E204D41524B20),
  (0xA71F, 0x4D4F444946494552204C4554544552204C4F5720494E564552544544204558434C414D4154494F4E204D41524B20),
  (0xA720, 0x4D4F444946494552204C45545445522053545245535320414E44204849474820544F4E4520),
  (0xA721, 0x4D4F444946494552204C45545445522053545245535320414E44204C4F5720544F4E4520),
  (0xA722, 0x4C4154494E204341504954414C204C45545445522045475950544F4C4F474943414C20414C454620),
  (0xA723, 0x4C4154494E20534D414C4C204C45545445522045475950544F4C4F474943414C20414C454620),
  (0xA724, 0x4C4154494E204341504954414C204C45545445522045475950544F4C4F474943414C2041494E20),
  (0xA725, 0x4C4154494E20534D414C4C204C45545445522045475950544F4C4F474943414C2041494E20),
  (0xA726, 0x4C4154494E204341504954414C204C45545445522048454E4720),
  (0xA727, 0x4C4154494E20534D414C4C204C45545445522048454E4720),
  (0xA728, 0x4C4154494E204341504954414C204C455454455220545A20),
  (0xA729, 0x4C4154494E20534D414C4C204C455454455220545A20),
  (0xA72A, 0x4C4154494E204341504954414C204C45545445522054524553494C4C4F20),
  (0xA72B, 0x4C4154494E20534D414C4C204C45545445522054524553494C4C4F20),
  (0xA72C, 0x4C4154494E204341504954414C204C4554544552204355415452494C4C4F20),
  (0xA72D, 0x4C4154494E20534D414C4C204C4554544552204355415452494C4C4F20),
  (0xA72E, 0x4C4154494E204341504954414C204C4554544552204355415452494C4C4F205749544820434F4D4D4120),
  (0xA72F, 0x4C4154494E20534D414C4C204C4554544552204355415452494C4C4F205749544820434F4D4D4120),
  (0xA730, 0x4C4154494E204C455454455220534D414C4C204341504954414C204620),
  (0xA731, 0x4C4154494E204C455454455220534D414C4C204341504954414C205320),
  (0xA732, 0x4C4154494E204341504954414C204C455454455220414120),
  (0xA733, 0x4C4154494E20534D414C4C204C455454455220414120),
  (0xA734, 0x4C4154494E204341504954414C204C455454455220414F20),
  (0xA735, 0x4C4154494E20534D414C4C204C455454455220414F20),
  (0xA736, 0x4C4154494E204341504954414C204C455454455220415520),
  (0xA737, 0x4C4154494E20534D414C4C204C455454455220415520),
  (0xA738, 0x4C4154494E204341504954414C204C455454455220415620),
  (0xA739, 0x4C4154494E20534D414C4C204C455454455220415620),
  (0xA73A, 0x4C4154494E204341504954414C204C4554544552204156205749544820484F52495A4F4E54414C2042415220),
  (0xA73B, 0x4C4154494E20534D414C4C204C4554544552204156205749544820484F52495A4F4E54414C2042415220),
  (0xA73C, 0x4C4154494E204341504954414C204C455454455220415920),
  (0xA73D, 0x4C4154494E20534D414C4C204C455454455220415920),
  (0xA73E, 0x4C4154494E204341504954414C204C45545445522052455645525345442043205749544820444F5420),
  (0xA73F, 0x4C4154494E20534D414C4C204C45545445522052455645525345442043205749544820444F5420),
  (0xA740, 0x4C4154494E204341504954414C204C4554544552204B2057495448205354524F4B4520),
  (0xA741, 0x4C4154494E20534D414C4C204C4554544552204B2057495448205354524F4B4520),
  (0xA742, 0x4C4154494E204341504954414C204C4554544552204B205749544820444941474F4E414C205354524F4B4520),
  (0xA743, 0x4C4154494E20534D414C4C204C4554544552204B205749544820444941474F4E414C205354524F4B4520),
  (0xA744, 0x4C4154494E204341504954414C204C4554544552204B2057495448205354524F4B4520414E4420444941474F4E414C205354524F4B4520),
  (0xA745, 0x4C4154494E20534D414C4C204C4554544552204B2057495448205354524F4B4520414E4420444941474F4E414C205354524F4B4520),
  (0xA746, 0x4C4154494E204341504954414C204C45545445522042524F4B454E204C20),
  (0xA747, 0x4C4154494E20534D414C4C204C45545445522042524F4B454E204C20),
  (0xA748, 0x4C4154494E204341504954414C204C4554544552204C20574954482048494748205354524F4B4520),
  (0xA749, 0x4C4154494E20534D414C4C204C4554544552204C20574954482048494748205354524F4B4520),
  (0xA74A, 0x4C4154494E204341504954414C204C4554544552204F2057495448204C4F4E47205354524F4B45204F5645524C415920),
  (0xA74B, 0x4C4154494E20534D414C4C204C4554544552204F2057495448204C4F4E47205354524F4B45204F5645524C415920),
  (0xA74C, 0x4C4154494E204341504954414C204C4554544552204F2057495448204C4F4F5020),
  (0xA74D, 0x4C4154494E20534D414C4C204C4554544552204F2057495448204C4F4F5020),
  (0xA74E, 0x4C4154494E204341504954414C204C4554544552204F4F20),
  (0xA74F, 0x4C4154494E20534D414C4C204C4554544552204F4F20),
  (0xA750, 0x4C4154494E204341504954414C204C455454455220502057495448205354524F4B45205448524F5547482044455343454E44455220),
  (0xA751, 0x4C4154494E20534D414C4C204C455454455220502057495448205354524F4B45205448524F5547482044455343454E44455220),
  (0xA752, 0x4C4154494E204341504954414C204C45545445522050205749544820464C4F555249534820),
  (0xA753, 0x4C4154494E20534D414C4C204C45545445522050205749544820464C4F555249534820),
  (0xA754, 0x4C4154494E204341504954414C204C45545445522050205749544820535155495252454C205441494C20),
  (0xA755, 0x4C4154494E20534D414C4C204C45545445522050205749544820535155495252454C205441494C20)]
def names_216 : List (Nat × Nat) := [
  (0xA756, 0x4C4154494E204341504954414C204C455454455220512057495448205354524F4B45205448524F5547482044455343454E44455220),
  (0xA757, 0x4C4154494E20534D414C4C204C455454455220512057495448205354524F4B45205448524F5547482044455343454E44455220),
  (0xA758, 0x4C4154494E204341504954414C204C45545445522051205749544820444941474F4E414C205354524F4B4520),
  (0xA759, 0x4C4154494E20534D414C4C204C45545445522051205749544820444941474F4E414C205354524F4B4520),
  (0xA75A, 0x4C4154494E204341504954414C204C4554544552205220524F54554E444120),
  (0xA75B, 0x4C4154494E20534D414C4C204C4554544552205220524F54554E444120),
  (0xA75C, 0x4C4154494E204341504954414C204C45545445522052554D20524F54554E444120),
  (0xA75D, 0x4C4154494E20534D414C4C204C45545445522052554D20524F54554E444120),
  (0xA75E, 0x4C4154494E204341504954414C204C45545445522056205749544820444941474F4E414C205354524F4B4520),
  (0xA75F, 0x4C4154494E20534D414C4C204C45545445522056205749544820444941474F4E414C205354524F4B4520),
  (0xA760, 0x4C4154494E204341504954414C204C455454455220565920),
  (0xA761, 0x4C4154494E20534D414C4C204C455454455220565920),
  (0xA762, 0x4C4154494E204341504954414C204C45545445522056495349474F54484943205A20),
  (0xA763, 0x4C4154494E20534D414C4C204C45545445522056495349474F54484943205A20),
  (0xA764, 0x4C4154494E204341504954414C204C45545445522054484F524E2057495448205354524F4B4520),
  (0xA765, 0x4C4154494E20534D414C4C204C45545445522054484F524E2057495448205354524F4B4520),
  (0xA766, 0x4C4154494E204341504954414C204C45545445522054484F524E2057495448205354524F4B45205448524F5547482044455343454E44455220),
  (0xA767, 0x4C4154494E20534D414C4C204C45545445522054484F524E2057495448205354524F4B45205448524F5547482044455343454E44455220),
  (0xA768, 0x4C4154494E204341504954414C204C45545445522056454E4420),
  (0xA769, 0x4C4154494E20534D414C4C204C45545445522056454E4420),
  (0xA76A, 0x4C4154494E204341504954414C204C455454455220455420),
  (0xA76B, 0x4C4154494E20534D414C4C204C455454455220455420),
  (0xA76C, 0x4C4154494E204341504954414C204C455454455220495320),
  (0xA76D, 0x4C4154494E20534D414C4C204C455454455220495320),
  (0xA76E, 0x4C4154494E204341504954414C204C455454455220434F4E20),
  (0xA76F, 0x4C4154494E20534D414C4C204C455454455220434F4E20),
  (0xA770, 0x4D4F444946494552204C455454455220555320),
  (0xA771, 0x4C4154494E20534D414C4C204C45545445522044554D20),
  (0xA772, 0x4C4154494E20534D414C4C204C4554544552204C554D20),
  (0xA773, 0x4C4154494E20534D414C4C204C4554544552204D554D20),
  (0xA774, 0x4C4154494E20534D414C4C204C4554544552204E554D20),
  (0xA775, 0x4C4154494E20534D414C4C204C45545445522052554D20),
  (0xA776, 0x4C4154494E204C455454455220534D414C4C204341504954414C2052554D20),
  (0xA777, 0x4C4154494E20534D414C4C204C45545445522054554D20),
  (0xA778, 0x4C4154494E20534D414C4C204C455454455220554D20),
  (0xA779, 0x4C4154494E204341504954414C204C455454455220494E53554C4152204420),
  (0xA77A, 0x4C4154494E20534D414C4C204C455454455220494E53554C4152204420),
  (0xA77B, 0x4C4154494E204341504954414C204C455454455220494E53554C4152204620),
  (0xA77C, 0x4C4154494E20534D414C4C204C455454455220494E53554C4152204620),
  (0xA77D, 0x4C4154494E204341504954414C204C455454455220494E53554C4152204720),
  (0xA77E, 0x4C4154494E204341504954414C204C4554544552205455524E454420494E53554C4152204720),
  (0xA77F, 0x4C4154494E20534D414C4C204C4554544552205455524E454420494E53554C4152204720),
  (0xA780, 0x4C4154494E204341504954414C204C4554544552205455524E4544204C20),
  (0xA781, 0x4C4154494E20534D414C4C204C4554544552205455524E4544204C20),
  (0xA782, 0x4C4154494E204341504954414C204C455454455220494E53554C4152205220),
  (0xA783, 0x4C4154494E20534D414C4C204C455454455220494E53554C4152205220),
  (0xA784, 0x4C4154494E204341504954414C204C455454455220494E53554C4152205320),
  (0xA785, 0x4C4154494E20534D414C4C204C455454455220494E53554C4152205320),
  (0xA786, 0x4C4154494E204341504954414C204C455454455220494E53554C4152205420),
  (0xA787, 0x4C4154494E20534D414C4C204C455454455220494E53554C4152205420),
  (0xA788, 0x4D4F444946494552204C4554544552204C4F572043495243554D464C455820414343454E5420),
  (0xA789, 0x4D4F444946494552204C455454455220434F4C4F4E20),
  (0xA78A, 0x4D4F444946494552204C45545445522053484F525420455155414C53205349474E20),
  (0xA78B, 0x4C4154494E204341504954414C204C45545445522053414C54494C4C4F20),
  (0xA78C, 0x4C4154494E20534D414C4C204C45545445522053414C54494C4C4F20),
  (0xA78D, 0x4C4154494E204341504954414C204C4554544552205455524E4544204820),
  (0xA78E, 0x4C4154494E20534D414C4C204C4554544552204C205749544820524554524F464C455820484F4F4B20414E442042454C5420),
  (0xA78F, 0x4C4154494E204C45545445522053494E4F4C4F474943414C20444F5420),
  (0xA790, 0x4C4154494E204341504954414C204C4554544552204E20574954482044455343454E44455220),
  (0xA791, 0x4C4154494E20534D414C4C204C4554544552204E20574954482044455343454E44455220),
  (0xA792, 0x4C4154494E204341504954414C204C4554544552204320574954482042415220),
  (0xA793, 0x4C4154494E20534D414C4C204C4554544552204320574954482042415220),
  (0xA794, 0x4C4154494E20534D414C4C204C4554544552204320574954482050414C4154414C20484F4F4B20),
  (0xA795, 0x4C4154494E20534D414C4C204C4554544552204820574954482050414C4154414C20484F4F4B20)]
def names_217 : List (Nat × Nat) := [
  (0xA796, 0x4C4154494E204341504954414C204C45545445522042205749544820464C4F555249534820),
  (0xA797, 0x4C4154494E20534D414C4C204C45545445522042205749544820464C4F555249534820),
  (0xA798, 0x4C4154494E204341504954414C204C455454455220462057495448205354524F4B4520),
  (0xA799, 0x4C4154494E20534D414C4C204C455454455220462057495448205354524F4B4520),
  (0xA79A, 0x4C4154494E204341504954414C204C455454455220564F4C4150554B20414520),
  (0xA79B, 0x4C4154494E20534D414C4C204C455454455220564F4C4150554B20414520),
  (0xA79C, 0x4C4154494E204341504954414C204C455454455220564F4C4150554B204F4520),
  (0xA79D, 0x4C4154494E20534D414C4C204C455454455220564F4C4150554B204F4520),
  (0xA79E, 0x4C4154494E204341504954414C204C455454455220564F4C4150554B20554520),
  (0xA79F, 0x4C4154494E20534D414C4C204C455454455220564F4C4150554B20554520),
  (0xA7A0, 0x4C4154494E204341504954414C204C455454455220472057495448204F424C49515545205354524F4B4520),
  (0xA7A1, 0x4C4154494E20534D414C4C204C455454455220472057495448204F424C49515545205354524F4B4520),
  (0xA7A2, 0x4C4154494E204341504954414C204C4554544552204B2057495448204F424C49515545205354524F4B4520),
  (0xA7A3, 0x4C4154494E20534D414C4C204C4554544552204B2057495448204F424C49515545205354524F4B4520),
  (0xA7A4, 0x4C4154494E204341504954414C204C4554544552204E2057495448204F424C49515545205354524F4B4520),
  (0xA7A5, 0x4C4154494E20534D414C4C204C4554544552204E2057495448204F424C49515545205354524F4B4520),
  (0xA7A6, 0x4C4154494E204341504954414C204C455454455220522057495448204F424C49515545205354524F4B4520),
  (0xA7A7, 0x4C4154494E20534D414C4C204C455454455220522057495448204F424C49515545205354524F4B4520),
  (0xA7A8, 0x4C4154494E204341504954414C204C455454455220532057495448204F424C49515545205354524F4B4520),
  (0xA7A9, 0x4C4154494E20534D414C4C204C455454455220532057495448204F424C49515545205354524F4B4520),
  (0xA7AA, 0x4C4154494E204341504954414C204C45545445522048205749544820484F4F4B20),
  (0xA7AB, 0x4C4154494E204341504954414C204C4554544552205245564552534544204F50454E204520),
  (0xA7AC, 0x4C4154494E204341504954414C204C455454455220534352495054204720),
  (0xA7AD, 0x4C4154494E204341504954414C204C4554544552204C20574954482042454C5420),
  (0xA7AE, 0x4C4154494E204341504954414C204C455454455220534D414C4C204341504954414C204920),
  (0xA7B0, 0x4C4154494E204341504954414C204C4554544552205455524E4544204B20),
  (0xA7B1, 0x4C4154494E204341504954414C204C4554544552205455524E4544205420),
  (0xA7B2, 0x4C4154494E204341504954414C204C4554544552204A20574954482043524F535345442D5441494C20),
  (0xA7B3, 0x4C4154494E204341504954414C204C45545445522043484920),
  (0xA7B4, 0x4C4154494E204341504954414C204C4554544552204245544120),
  (0xA7B5, 0x4C4154494E20534D414C4C204C4554544552204245544120),
  (0xA7B6, 0x4C4154494E204341504954414C204C4554544552204F4D45474120),
  (0xA7B7, 0x4C4154494E20534D414C4C204C4554544552204F4D45474120),
  (0xA7F7, 0x4C4154494E2045504947524150484943204C4554544552205349444557415953204920),
  (0xA7F8, 0x4D4F444946494552204C4554544552204341504954414C20482057495448205354524F4B4520),
  (0xA7F9, 0x4D4F444946494552204C455454455220534D414C4C204C49474154555245204F4520),
  (0xA7FA, 0x4C4154494E204C455454455220534D414C4C204341504954414C205455524E4544204D20),
  (0xA7FB, 0x4C4154494E2045504947524150484943204C4554544552205245564552534544204620),
  (0xA7FC, 0x4C4154494E2045504947524150484943204C4554544552205245564552534544205020),
  (0xA7FD, 0x4C4154494E2045504947524150484943204C455454455220494E564552544544204D20),
  (0xA7FE, 0x4C4154494E2045504947524150484943204C45545445522049204C4F4E474120),
  (0xA7FF, 0x4C4154494E2045504947524150484943204C45545445522041524348414943204D20),
  (0xA800, 0x53594C4F5449204E41475249204C4554544552204120),
  (0xA801, 0x53594C4F5449204E41475249204C4554544552204920),
  (0xA802, 0x53594C4F5449204E41475249205349474E20445649535641524120),
  (0xA803, 0x53594C4F5449204E41475249204C4554544552205520),
  (0xA804, 0x53594C4F5449204E41475249204C4554544552204520),
  (0xA805, 0x53594C4F5449204E41475249204C4554544552204F20),
  (0xA806, 0x53594C4F5449204E41475249205349474E20484153414E544120),
  (0xA807, 0x53594C4F5449204E41475249204C4554544552204B4F20),
  (0xA808, 0x53594C4F5449204E41475249204C4554544552204B484F20),
  (0xA809, 0x53594C4F5449204E41475249204C455454455220474F20),
  (0xA80A, 0x53594C4F5449204E41475249204C45545445522047484F20),
  (0xA80B, 0x53594C4F5449204E41475249205349474E20414E55535641524120),
  (0xA80C, 0x53594C4F5449204E41475249204C455454455220434F20),
  (0xA80D, 0x53594C4F5449204E41475249204C45545445522043484F20),
  (0xA80E, 0x53594C4F5449204E41475249204C4554544552204A4F20),
  (0xA80F, 0x53594C4F5449204E41475249204C4554544552204A484F20),
  (0xA810, 0x53594C4F5449204E41475249204C45545445522054544F20),
  (0xA811, 0x53594C4F5449204E41475249204C4554544552205454484F20),
  (0xA812, 0x53594C4F5449204E41475249204C45545445522044444F20),
  (0xA813, 0x53594C4F5449204E41475249204C4554544552204444484F20),
  (0xA814, 0x53594C4F5449204E41475249204C455454455220544F20),
  (0xA815, 0x53594C4F5449204E41475249204C45545445522054484F20)]
def names_218 : List (Nat × Nat) := [
  (0xA816, 0x53594C4F5449204E41475249204C455454455220444F20),
  (0xA817, 0x53594C4F5449204E41475249204C45545445522044484F20),
  (0xA818, 0x53594C4F5449204E41475249204C4554544552204E4F20),
  (0xA819, 0x53594C4F5449204E41475249204C455454455220504F20),
  (0xA81A, 0x53594C4F5449204E41475249204C45545445522050484F20),
  (0xA81B, 0x53594C4F5449204E41475249204C455454455220424F20),
  (0xA81C, 0x53594C4F5449204E41475249204C45545445522042484F20),
  (0xA81D, 0x53594C4F5449204E41475249204C4554544552204D4F20),
  (0xA81E, 0x53594C4F5449204E41475249204C455454455220524F20),
  (0xA81F, 0x53594C4F5449204E41475249204C4554544552204C4F20),
  (0xA820, 0x53594C4F5449204E41475249204C45545445522052524F20),
  (0xA821, 0x53594C4F5449204E41475249204C455454455220534F20),
  (0xA822, 0x53594C4F5449204E41475249204C455454455220484F20),
  (0xA823, 0x53594C4F5449204E4147524920564F57454C205349474E204120),
  (0xA824, 0x53594C4F5449204E4147524920564F57454C205349474E204920),
  (0xA825, 0x53594C4F5449204E4147524920564F57454C205349474E205520),
  (0xA826, 0x53594C4F5449204E4147524920564F57454C205349474E204520),
  (0xA827, 0x53594C4F5449204E4147524920564F57454C205349474E204F4F20),
  (0xA828, 0x53594C4F5449204E4147524920504F45545259204D41524B2D3120),
  (0xA829, 0x53594C4F5449204E4147524920504F45545259204D41524B2D3220),
  (0xA82A, 0x53594C4F5449204E4147524920504F45545259204D41524B2D3320),
  (0xA82B, 0x53594C4F5449204E4147524920504F45545259204D41524B2D3420),
  (0xA830, 0x4E4F52544820494E444943204652414354494F4E204F4E45205155415254455220),
  (0xA831, 0x4E4F52544820494E444943204652414354494F4E204F4E452048414C4620),
  (0xA832, 0x4E4F52544820494E444943204652414354494F4E20544852454520515541525445525320),
  (0xA833, 0x4E4F52544820494E444943204652414354494F4E204F4E45205349585445454E544820),
  (0xA834, 0x4E4F52544820494E444943204652414354494F4E204F4E452045494748544820),
  (0xA835, 0x4E4F52544820494E444943204652414354494F4E205448524545205349585445454E54485320),
  (0xA836, 0x4E4F52544820494E4449432051554152544552204D41524B20),
  (0xA837, 0x4E4F52544820494E44494320504C414345484F4C444552204D41524B20),
  (0xA838, 0x4E4F52544820494E444943205255504545204D41524B20),
  (0xA839, 0x4E4F52544820494E444943205155414E54495459204D41524B20),
  (0xA840, 0x50484147532D5041204C4554544552204B4120),
  (0xA841, 0x50484147532D5041204C4554544552204B484120),
  (0xA842, 0x50484147532D5041204C455454455220474120),
  (0xA843, 0x50484147532D5041204C4554544552204E474120),
  (0xA844, 0x50484147532D5041204C455454455220434120),
  (0xA845, 0x50484147532D5041204C45545445522043484120),
  (0xA846, 0x50484147532D5041204C4554544552204A4120),
  (0xA847, 0x50484147532D5041204C4554544552204E594120),
  (0xA848, 0x50484147532D5041204C455454455220544120),
  (0xA849, 0x50484147532D5041204C45545445522054484120),
  (0xA84A, 0x50484147532D5041204C455454455220444120),
  (0xA84B, 0x50484147532D5041204C4554544552204E4120),
  (0xA84C, 0x50484147532D5041204C455454455220504120),
  (0xA84D, 0x50484147532D5041204C45545445522050484120),
  (0xA84E, 0x50484147532D5041204C455454455220424120),
  (0xA84F, 0x50484147532D5041204C4554544552204D4120),
  (0xA850, 0x50484147532D5041204C45545445522054534120),
  (0xA851, 0x50484147532D5041204C4554544552205453484120),
  (0xA852, 0x50484147532D5041204C455454455220445A4120),
  (0xA853, 0x50484147532D5041204C455454455220574120),
  (0xA854, 0x50484147532D5041204C4554544552205A484120),
  (0xA855, 0x50484147532D5041204C4554544552205A4120),
  (0xA856, 0x50484147532D5041204C455454455220534D414C4C204120),
  (0xA857, 0x50484147532D5041204C455454455220594120),
  (0xA858, 0x50484147532D5041204C455454455220524120),
  (0xA859, 0x50484147532D5041204C4554544552204C4120),
  (0xA85A, 0x50484147532D5041204C45545445522053484120),
  (0xA85B, 0x50484147532D5041204C455454455220534120),
  (0xA85C, 0x50484147532D5041204C455454455220484120),
  (0xA85D, 0x50484147532D5041204C4554544552204120),
  (0xA85E, 0x50484147532D5041204C4554544552204920),
  (0xA85F, 0x50484147532D5041204C4554544552205520)]
def names_219 : List (Nat × Nat) := [
  (0xA860, 0x50484147532D5041204C4554544552204520),
  (0xA861, 0x50484147532D5041204C4554544552204F20),
  (0xA862, 0x50484147532D5041204C455454455220514120),
  (0xA863, 0x50484147532D5041204C455454455220584120),
  (0xA864, 0x50484147532D5041204C455454455220464120),
  (0xA865, 0x50484147532D5041204C45545445522047474120),
  (0xA866, 0x50484147532D5041204C455454455220454520),
  (0xA867, 0x50484147532D5041205355424A4F494E4544204C455454455220574120),
  (0xA868, 0x50484147532D5041205355424A4F494E4544204C455454455220594120),
  (0xA869, 0x50484147532D5041204C45545445522054544120),
  (0xA86A, 0x50484147532D5041204C4554544552205454484120),
  (0xA86B, 0x50484147532D5041204C45545445522044444120),
  (0xA86C, 0x50484147532D5041204C4554544552204E4E4120),
  (0xA86D, 0x50484147532D5041204C455454455220414C5445524E41544520594120),
  (0xA86E, 0x50484147532D5041204C455454455220564F4943454C4553532053484120),
  (0xA86F, 0x50484147532D5041204C455454455220564F4943454420484120),
  (0xA870, 0x50484147532D5041204C45545445522041535049524154454420464120),
  (0xA871, 0x50484147532D5041205355424A4F494E4544204C455454455220524120),
  (0xA872, 0x50484147532D50412053555045524649584544204C455454455220524120),
  (0xA873, 0x50484147532D5041204C45545445522043414E44524142494E445520),
  (0xA874, 0x50484147532D50412053494E474C452048454144204D41524B20),
  (0xA875, 0x50484147532D504120444F55424C452048454144204D41524B20),
  (0xA876, 0x50484147532D5041204D41524B205348414420),
  (0xA877, 0x50484147532D5041204D41524B20444F55424C45205348414420),
  (0xA880, 0x53415552415348545241205349474E20414E55535641524120),
  (0xA881, 0x53415552415348545241205349474E205649534152474120),
  (0xA882, 0x53415552415348545241204C4554544552204120),
  (0xA883, 0x53415552415348545241204C455454455220414120),
  (0xA884, 0x53415552415348545241204C4554544552204920),
  (0xA885, 0x53415552415348545241204C455454455220494920),
  (0xA886, 0x53415552415348545241204C4554544552205520),
  (0xA887, 0x53415552415348545241204C455454455220555520),
  (0xA888, 0x53415552415348545241204C455454455220564F43414C4943205220),
  (0xA889, 0x53415552415348545241204C455454455220564F43414C494320525220),
  (0xA88A, 0x53415552415348545241204C455454455220564F43414C4943204C20),
  (0xA88B, 0x53415552415348545241204C455454455220564F43414C4943204C4C20),
  (0xA88C, 0x53415552415348545241204C4554544552204520),
  (0xA88D, 0x53415552415348545241204C455454455220454520),
  (0xA88E, 0x53415552415348545241204C455454455220414920),
  (0xA88F, 0x53415552415348545241204C4554544552204F20),
  (0xA890, 0x53415552415348545241204C4554544552204F4F20),
  (0xA891, 0x53415552415348545241204C455454455220415520),
  (0xA892, 0x53415552415348545241204C4554544552204B4120),
  (0xA893, 0x53415552415348545241204C4554544552204B484120),
  (0xA894, 0x53415552415348545241204C455454455220474120),
  (0xA895, 0x53415552415348545241204C45545445522047484120),
  (0xA896, 0x53415552415348545241204C4554544552204E474120),
  (0xA897, 0x53415552415348545241204C455454455220434120),
  (0xA898, 0x53415552415348545241204C45545445522043484120),
  (0xA899, 0x53415552415348545241204C4554544552204A4120),
  (0xA89A, 0x53415552415348545241204C4554544552204A484120),
  (0xA89B, 0x53415552415348545241204C4554544552204E594120),
  (0xA89C, 0x53415552415348545241204C45545445522054544120),
  (0xA89D, 0x53415552415348545241204C4554544552205454484120),
  (0xA89E, 0x53415552415348545241204C45545445522044444120),
  (0xA89F, 0x53415552415348545241204C4554544552204444484120),
  (0xA8A0, 0x53415552415348545241204C4554544552204E4E4120),
  (0xA8A1, 0x53415552415348545241204C455454455220544120),
  (0xA8A2, 0x53415552415348545241204C45545445522054484120),
  (0xA8A3, 0x53415552415348545241204C455454455220444120),
  (0xA8A4, 0x53415552415348545241204C45545445522044484120),
  (0xA8A5, 0x53415552415348545241204C4554544552204E4120),
  (0xA8A6, 0x53415552415348545241204C455454455220504120),
  (0xA8A7, 0x53415552415348545241204C45545445522050484120)]
def names_220 : List (Nat × Nat) := [
  (0xA8A8, 0x53415552415348545241204C455454455220424120),
  (0xA8A9, 0x53415552415348545241204C45545445522042484120),
  (0xA8AA, 0x53415552415348545241204C4554544552204D4120),
  (0xA8AB, 0x53415552415348545241204C455454455220594120),
  (0xA8AC, 0x53415552415348545241204C455454455220524120),
  (0xA8AD, 0x53415552415348545241204C4554544552204C4120),
  (0xA8AE, 0x53415552415348545241204C455454455220564120),
  (0xA8AF, 0x53415552415348545241204C45545445522053484120),
  (0xA8B0, 0x53415552415348545241204C45545445522053534120),
  (0xA8B1, 0x53415552415348545241204C455454455220534120),
  (0xA8B2, 0x53415552415348545241204C455454455220484120),
  (0xA8B3, 0x53415552415348545241204C4554544552204C4C4120),
  (0xA8B4, 0x5341555241534854524120434F4E534F4E414E54205349474E20484141525520),
  (0xA8B5, 0x5341555241534854524120564F57454C205349474E20414120),
  (0xA8B6, 0x5341555241534854524120564F57454C205349474E204920),
  (0xA8B7, 0x5341555241534854524120564F57454C205349474E20494920),
  (0xA8B8, 0x5341555241534854524120564F57454C205349474E205520),
  (0xA8B9, 0x5341555241534854524120564F57454C205349474E20555520),
  (0xA8BA, 0x5341555241534854524120564F57454C205349474E20564F43414C4943205220),
  (0xA8BB, 0x5341555241534854524120564F57454C205349474E20564F43414C494320525220),
  (0xA8BC, 0x5341555241534854524120564F57454C205349474E20564F43414C4943204C20),
  (0xA8BD, 0x5341555241534854524120564F57454C205349474E20564F43414C4943204C4C20),
  (0xA8BE, 0x5341555241534854524120564F57454C205349474E204520),
  (0xA8BF, 0x5341555241534854524120564F57454C205349474E20454520),
  (0xA8C0, 0x5341555241534854524120564F57454C205349474E20414920),
  (0xA8C1, 0x5341555241534854524120564F57454C205349474E204F20),
  (0xA8C2, 0x5341555241534854524120564F57454C205349474E204F4F20),
  (0xA8C3, 0x5341555241534854524120564F57454C205349474E20415520),
  (0xA8C4, 0x53415552415348545241205349474E20564952414D4120),
  (0xA8C5, 0x53415552415348545241205349474E2043414E44524142494E445520),
  (0xA8CE, 0x534155524153485452412044414E444120),
  (0xA8CF, 0x5341555241534854524120444F55424C452044414E444120),
  (0xA8D0, 0x53415552415348545241204449474954205A45524F20),
  (0xA8D1, 0x53415552415348545241204449474954204F4E4520),
  (0xA8D2, 0x534155524153485452412044494749542054574F20),
  (0xA8D3, 0x5341555241534854524120444947495420544852454520),
  (0xA8D4, 0x5341555241534854524120444947495420464F555220),
  (0xA8D5, 0x53415552415348545241204449474954204649564520),
  (0xA8D6, 0x534155524153485452412044494749542053495820),
  (0xA8D7, 0x5341555241534854524120444947495420534556454E20),
  (0xA8D8, 0x5341555241534854524120444947495420454947485420),
  (0xA8D9, 0x53415552415348545241204449474954204E494E4520),
  (0xA8E0, 0x434F4D42494E494E4720444556414E4147415249204449474954205A45524F20),
  (0xA8E1, 0x434F4D42494E494E4720444556414E4147415249204449474954204F4E4520),
  (0xA8E2, 0x434F4D42494E494E4720444556414E41474152492044494749542054574F20),
  (0xA8E3, 0x434F4D42494E494E4720444556414E414741524920444947495420544852454520),
  (0xA8E4, 0x434F4D42494E494E4720444556414E414741524920444947495420464F555220),
  (0xA8E5, 0x434F4D42494E494E4720444556414E4147415249204449474954204649564520),
  (0xA8E6, 0x434F4D42494E494E4720444556414E41474152492044494749542053495820),
  (0xA8E7, 0x434F4D42494E494E4720444556414E414741524920444947495420534556454E20),
  (0xA8E8, 0x434F4D42494E494E4720444556414E414741524920444947495420454947485420),
  (0xA8E9, 0x434F4D42494E494E4720444556414E4147415249204449474954204E494E4520),
  (0xA8EA, 0x434F4D42494E494E4720444556414E4147415249204C4554544552204120),
  (0xA8EB, 0x434F4D42494E494E4720444556414E4147415249204C4554544552205520),
  (0xA8EC, 0x434F4D42494E494E4720444556414E4147415249204C4554544552204B4120),
  (0xA8ED, 0x434F4D42494E494E4720444556414E4147415249204C4554544552204E4120),
  (0xA8EE, 0x434F4D42494E494E4720444556414E4147415249204C455454455220504120),
  (0xA8EF, 0x434F4D42494E494E4720444556414E4147415249204C455454455220524120),
  (0xA8F0, 0x434F4D42494E494E4720444556414E4147415249204C455454455220564920),
  (0xA8F1, 0x434F4D42494E494E4720444556414E4147415249205349474E20415641475241484120),
  (0xA8F2, 0x444556414E4147415249205349474E2053504143494E472043414E44524142494E445520),
  (0xA8F3, 0x444556414E4147415249205349474E2043414E44524142494E445520564952414D4120),
  (0xA8F4, 0x444556414E4147415249205349474E20444F55424C452043414E44524142494E445520564952414D4120),
  (0xA8F5, 0x444556414E4147415249205349474E2043414E44524142494E44552054574F20)]
def names_221 : List (Nat × Nat) := [
  (0xA8F6, 0x444556414E4147415249205349474E2043414E44524142494E445520544852454520),
  (0xA8F7, 0x444556414E4147415249205349474E2043414E44524142494E445520415641475241484120),
  (0xA8F8, 0x444556414E4147415249205349474E205055534850494B4120),
  (0xA8F9, 0x444556414E4147415249204741502046494C4C455220),
  (0xA8FA, 0x444556414E414741524920434152455420),
  (0xA8FB, 0x444556414E414741524920484541445354524F4B4520),
  (0xA8FC, 0x444556414E4147415249205349474E205349444448414D20),
  (0xA8FD, 0x444556414E4147415249204A41494E204F4D20),
  (0xA900, 0x4B41594148204C49204449474954205A45524F20),
  (0xA901, 0x4B41594148204C49204449474954204F4E4520),
  (0xA902, 0x4B41594148204C492044494749542054574F20),
  (0xA903, 0x4B41594148204C4920444947495420544852454520),
  (0xA904, 0x4B41594148204C4920444947495420464F555220),
  (0xA905, 0x4B41594148204C49204449474954204649564520),
  (0xA906, 0x4B41594148204C492044494749542053495820),
  (0xA907, 0x4B41594148204C4920444947495420534556454E20),
  (0xA908, 0x4B41594148204C4920444947495420454947485420),
  (0xA909, 0x4B41594148204C49204449474954204E494E4520),
  (0xA90A, 0x4B41594148204C49204C4554544552204B4120),
  (0xA90B, 0x4B41594148204C49204C4554544552204B484120),
  (0xA90C, 0x4B41594148204C49204C455454455220474120),
  (0xA90D, 0x4B41594148204C49204C4554544552204E474120),
  (0xA90E, 0x4B41594148204C49204C455454455220534120),
  (0xA90F, 0x4B41594148204C49204C45545445522053484120),
  (0xA910, 0x4B41594148204C49204C4554544552205A4120),
  (0xA911, 0x4B41594148204C49204C4554544552204E594120),
  (0xA912, 0x4B41594148204C49204C455454455220544120),
  (0xA913, 0x4B41594148204C49204C45545445522048544120),
  (0xA914, 0x4B41594148204C49204C4554544552204E4120),
  (0xA915, 0x4B41594148204C49204C455454455220504120),
  (0xA916, 0x4B41594148204C49204C45545445522050484120),
  (0xA917, 0x4B41594148204C49204C4554544552204D4120),
  (0xA918, 0x4B41594148204C49204C455454455220444120),
  (0xA919, 0x4B41594148204C49204C455454455220424120),
  (0xA91A, 0x4B41594148204C49204C455454455220524120),
  (0xA91B, 0x4B41594148204C49204C455454455220594120),
  (0xA91C, 0x4B41594148204C49204C4554544552204C4120),
  (0xA91D, 0x4B41594148204C49204C455454455220574120),
  (0xA91E, 0x4B41594148204C49204C45545445522054484120),
  (0xA91F, 0x4B41594148204C49204C455454455220484120),
  (0xA920, 0x4B41594148204C49204C455454455220564120),
  (0xA921, 0x4B41594148204C49204C455454455220434120),
  (0xA922, 0x4B41594148204C49204C4554544552204120),
  (0xA923, 0x4B41594148204C49204C4554544552204F4520),
  (0xA924, 0x4B41594148204C49204C4554544552204920),
  (0xA925, 0x4B41594148204C49204C4554544552204F4F20),
  (0xA926, 0x4B41594148204C4920564F57454C20554520),
  (0xA927, 0x4B41594148204C4920564F57454C204520),
  (0xA928, 0x4B41594148204C4920564F57454C205520),
  (0xA929, 0x4B41594148204C4920564F57454C20454520),
  (0xA92A, 0x4B41594148204C4920564F57454C204F20),
  (0xA92B, 0x4B41594148204C4920544F4E4520504C4F50485520),
  (0xA92C, 0x4B41594148204C4920544F4E452043414C594120),
  (0xA92D, 0x4B41594148204C4920544F4E452043414C594120504C4F50485520),
  (0xA92E, 0x4B41594148204C49205349474E2043574920),
  (0xA92F, 0x4B41594148204C49205349474E205348594120),
  (0xA930, 0x52454A414E47204C4554544552204B4120),
  (0xA931, 0x52454A414E47204C455454455220474120),
  (0xA932, 0x52454A414E47204C4554544552204E474120),
  (0xA933, 0x52454A414E47204C455454455220544120),
  (0xA934, 0x52454A414E47204C455454455220444120),
  (0xA935, 0x52454A414E47204C4554544552204E4120),
  (0xA936, 0x52454A414E47204C455454455220504120),
  (0xA937, 0x52454A414E47204C455454455220424120)]
def names_222 : List (Nat × Nat) := [
  (0xA938, 0x52454A414E47204C4554544552204D4120),
  (0xA939, 0x52454A414E47204C455454455220434120),
  (0xA93A, 0x52454A414E47204C4554544552204A4120),
  (0xA93B, 0x52454A414E47204C4554544552204E594120),
  (0xA93C, 0x52454A414E47204C455454455220534120),
  (0xA93D, 0x52454A414E47204C455454455220524120),
  (0xA93E, 0x52454A414E47204C4554544552204C4120),
  (0xA93F, 0x52454A414E47204C455454455220594120),
  (0xA940, 0x52454A414E47204C455454455220574120),
  (0xA941, 0x52454A414E47204C455454455220484120),
  (0xA942, 0x52454A414E47204C4554544552204D424120),
  (0xA943, 0x52454A414E47204C4554544552204E47474120),
  (0xA944, 0x52454A414E47204C4554544552204E444120),
  (0xA945, 0x52454A414E47204C4554544552204E594A4120),
  (0xA946, 0x52454A414E47204C4554544552204120),
  (0xA947, 0x52454A414E4720564F57454C205349474E204920),
  (0xA948, 0x52454A414E4720564F57454C205349474E205520),
  (0xA949, 0x52454A414E4720564F57454C205349474E204520),
  (0xA94A, 0x52454A414E4720564F57454C205349474E20414920),
  (0xA94B, 0x52454A414E4720564F57454C205349474E204F20),
  (0xA94C, 0x52454A414E4720564F57454C205349474E20415520),
  (0xA94D, 0x52454A414E4720564F57454C205349474E20455520),
  (0xA94E, 0x52454A414E4720564F57454C205349474E20454120),
  (0xA94F, 0x52454A414E4720434F4E534F4E414E54205349474E204E4720),
  (0xA950, 0x52454A414E4720434F4E534F4E414E54205349474E204E20),
  (0xA951, 0x52454A414E4720434F4E534F4E414E54205349474E205220),
  (0xA952, 0x52454A414E4720434F4E534F4E414E54205349474E204820),
  (0xA953, 0x52454A414E4720564952414D4120),
  (0xA95F, 0x52454A414E472053454354494F4E204D41524B20),
  (0xA960, 0x48414E47554C2043484F53454F4E472054494B4555542D4D4945554D20),
  (0xA961, 0x48414E47554C2043484F53454F4E472054494B4555542D504945555020),
  (0xA962, 0x48414E47554C2043484F53454F4E472054494B4555542D53494F5320),
  (0xA963, 0x48414E47554C2043484F53454F4E472054494B4555542D434945554320),
  (0xA964, 0x48414E47554C2043484F53454F4E4720524945554C2D4B4959454F4B20),
  (0xA965, 0x48414E47554C2043484F53454F4E4720524945554C2D5353414E474B4959454F4B20),
  (0xA966, 0x48414E47554C2043484F53454F4E4720524945554C2D54494B45555420),
  (0xA967, 0x48414E47554C2043484F53454F4E4720524945554C2D5353414E4754494B45555420),
  (0xA968, 0x48414E47554C2043484F53454F4E4720524945554C2D4D4945554D20),
  (0xA969, 0x48414E47554C2043484F53454F4E4720524945554C2D504945555020),
  (0xA96A, 0x48414E47554C2043484F53454F4E4720524945554C2D5353414E47504945555020),
  (0xA96B, 0x48414E47554C2043484F53454F4E4720524945554C2D4B415059454F554E504945555020),
  (0xA96C, 0x48414E47554C2043484F53454F4E4720524945554C2D53494F5320),
  (0xA96D, 0x48414E47554C2043484F53454F4E4720524945554C2D434945554320),
  (0xA96E, 0x48414E47554C2043484F53454F4E4720524945554C2D4B484945554B4820),
  (0xA96F, 0x48414E47554C2043484F53454F4E47204D4945554D2D4B4959454F4B20),
  (0xA970, 0x48414E47554C2043484F53454F4E47204D4945554D2D54494B45555420),
  (0xA971, 0x48414E47554C2043484F53454F4E47204D4945554D2D53494F5320),
  (0xA972, 0x48414E47554C2043484F53454F4E472050494555502D53494F532D5448494555544820),
  (0xA973, 0x48414E47554C2043484F53454F4E472050494555502D4B484945554B4820),
  (0xA974, 0x48414E47554C2043484F53454F4E472050494555502D484945554820),
  (0xA975, 0x48414E47554C2043484F53454F4E47205353414E4753494F532D504945555020),
  (0xA976, 0x48414E47554C2043484F53454F4E47204945554E472D524945554C20),
  (0xA977, 0x48414E47554C2043484F53454F4E47204945554E472D484945554820),
  (0xA978, 0x48414E47554C2043484F53454F4E47205353414E4743494555432D484945554820),
  (0xA979, 0x48414E47554C2043484F53454F4E47205353414E475448494555544820),
  (0xA97A, 0x48414E47554C2043484F53454F4E4720504849455550482D484945554820),
  (0xA97B, 0x48414E47554C2043484F53454F4E472048494555482D53494F5320),
  (0xA97C, 0x48414E47554C2043484F53454F4E47205353414E4759454F52494E484945554820),
  (0xA980, 0x4A4156414E455345205349474E2050414E59414E47474120),
  (0xA981, 0x4A4156414E455345205349474E20434543414B20),
  (0xA982, 0x4A4156414E455345205349474E204C4159415220),
  (0xA983, 0x4A4156414E455345205349474E205749474E59414E20),
  (0xA984, 0x4A4156414E455345204C4554544552204120),
  (0xA985, 0x4A4156414E455345204C45545445522049204B41574920)]
def names_223 : List (Nat × Nat) := [
  (0xA986, 0x4A4156414E455345204C4554544552204920),
  (0xA987, 0x4A4156414E455345204C455454455220494920),
  (0xA988, 0x4A4156414E455345204C4554544552205520),
  (0xA989, 0x4A4156414E455345204C455454455220504120434552454B20),
  (0xA98A, 0x4A4156414E455345204C4554544552204E4741204C454C455420),
  (0xA98B, 0x4A4156414E455345204C4554544552204E4741204C454C4554205241535741444920),
  (0xA98C, 0x4A4156414E455345204C4554544552204520),
  (0xA98D, 0x4A4156414E455345204C455454455220414920),
  (0xA98E, 0x4A4156414E455345204C4554544552204F20),
  (0xA98F, 0x4A4156414E455345204C4554544552204B4120),
  (0xA990, 0x4A4156414E455345204C4554544552204B4120534153414B20),
  (0xA991, 0x4A4156414E455345204C4554544552204B41204D5552444120),
  (0xA992, 0x4A4156414E455345204C455454455220474120),
  (0xA993, 0x4A4156414E455345204C4554544552204741204D5552444120),
  (0xA994, 0x4A4156414E455345204C4554544552204E474120),
  (0xA995, 0x4A4156414E455345204C455454455220434120),
  (0xA996, 0x4A4156414E455345204C4554544552204341204D5552444120),
  (0xA997, 0x4A4156414E455345204C4554544552204A4120),
  (0xA998, 0x4A4156414E455345204C4554544552204E5941204D5552444120),
  (0xA999, 0x4A4156414E455345204C4554544552204A41204D4148415052414E4120),
  (0xA99A, 0x4A4156414E455345204C4554544552204E594120),
  (0xA99B, 0x4A4156414E455345204C45545445522054544120),
  (0xA99C, 0x4A4156414E455345204C455454455220545441204D4148415052414E4120),
  (0xA99D, 0x4A4156414E455345204C45545445522044444120),
  (0xA99E, 0x4A4156414E455345204C455454455220444441204D4148415052414E4120),
  (0xA99F, 0x4A4156414E455345204C4554544552204E41204D5552444120),
  (0xA9A0, 0x4A4156414E455345204C455454455220544120),
  (0xA9A1, 0x4A4156414E455345204C4554544552205441204D5552444120),
  (0xA9A2, 0x4A4156414E455345204C455454455220444120),
  (0xA9A3, 0x4A4156414E455345204C4554544552204441204D4148415052414E4120),
  (0xA9A4, 0x4A4156414E455345204C4554544552204E4120),
  (0xA9A5, 0x4A4156414E455345204C455454455220504120),
  (0xA9A6, 0x4A4156414E455345204C4554544552205041204D5552444120),
  (0xA9A7, 0x4A4156414E455345204C455454455220424120),
  (0xA9A8, 0x4A4156414E455345204C4554544552204241204D5552444120),
  (0xA9A9, 0x4A4156414E455345204C4554544552204D4120),
  (0xA9AA, 0x4A4156414E455345204C455454455220594120),
  (0xA9AB, 0x4A4156414E455345204C455454455220524120),
  (0xA9AC, 0x4A4156414E455345204C4554544552205241204147554E4720),
  (0xA9AD, 0x4A4156414E455345204C4554544552204C4120),
  (0xA9AE, 0x4A4156414E455345204C455454455220574120),
  (0xA9AF, 0x4A4156414E455345204C4554544552205341204D5552444120),
  (0xA9B0, 0x4A4156414E455345204C4554544552205341204D4148415052414E4120),
  (0xA9B1, 0x4A4156414E455345204C455454455220534120),
  (0xA9B2, 0x4A4156414E455345204C455454455220484120),
  (0xA9B3, 0x4A4156414E455345205349474E20434543414B2054454C5520),
  (0xA9B4, 0x4A4156414E45534520564F57454C205349474E20544152554E4720),
  (0xA9B5, 0x4A4156414E45534520564F57454C205349474E20544F4C4F4E4720),
  (0xA9B6, 0x4A4156414E45534520564F57454C205349474E2057554C5520),
  (0xA9B7, 0x4A4156414E45534520564F57454C205349474E2057554C55204D454C494B20),
  (0xA9B8, 0x4A4156414E45534520564F57454C205349474E2053554B5520),
  (0xA9B9, 0x4A4156414E45534520564F57454C205349474E2053554B55204D454E44555420),
  (0xA9BA, 0x4A4156414E45534520564F57454C205349474E2054414C494E4720),
  (0xA9BB, 0x4A4156414E45534520564F57454C205349474E204449524741204D55524520),
  (0xA9BC, 0x4A4156414E45534520564F57454C205349474E20504550455420),
  (0xA9BD, 0x4A4156414E45534520434F4E534F4E414E54205349474E204B4552455420),
  (0xA9BE, 0x4A4156414E45534520434F4E534F4E414E54205349474E2050454E474B414C20),
  (0xA9BF, 0x4A4156414E45534520434F4E534F4E414E54205349474E2043414B524120),
  (0xA9C0, 0x4A4156414E4553452050414E474B4F4E20),
  (0xA9C1, 0x4A4156414E455345204C45465420524552454E4747414E20),
  (0xA9C2, 0x4A4156414E45534520524947485420524552454E4747414E20),
  (0xA9C3, 0x4A4156414E455345205041444120414E44415020),
  (0xA9C4, 0x4A4156414E4553452050414441204D4144594120),
  (0xA9C5, 0x4A4156414E4553452050414441204C5548555220)]
def names_224 : List (Nat × Nat) := [
  (0xA9C6, 0x4A4156414E45534520504144412057494E445520),
  (0xA9C7, 0x4A4156414E45534520504144412050414E474B415420),
  (0xA9C8, 0x4A4156414E4553452050414441204C494E47534120),
  (0xA9C9, 0x4A4156414E4553452050414441204C554E47534920),
  (0xA9CA, 0x4A4156414E4553452050414441204144454720),
  (0xA9CB, 0x4A4156414E45534520504144412041444547204144454720),
  (0xA9CC, 0x4A4156414E455345205041444120504953454C454820),
  (0xA9CD, 0x4A4156414E455345205455524E4544205041444120504953454C454820),
  (0xA9CF, 0x4A4156414E4553452050414E4752414E474B455020),
  (0xA9D0, 0x4A4156414E455345204449474954205A45524F20),
  (0xA9D1, 0x4A4156414E455345204449474954204F4E4520),
  (0xA9D2, 0x4A4156414E4553452044494749542054574F20),
  (0xA9D3, 0x4A4156414E45534520444947495420544852454520),
  (0xA9D4, 0x4A4156414E45534520444947495420464F555220),
  (0xA9D5, 0x4A4156414E455345204449474954204649564520),
  (0xA9D6, 0x4A4156414E4553452044494749542053495820),
  (0xA9D7, 0x4A4156414E45534520444947495420534556454E20),
  (0xA9D8, 0x4A4156414E45534520444947495420454947485420),
  (0xA9D9, 0x4A4156414E455345204449474954204E494E4520),
  (0xA9DE, 0x4A4156414E45534520504144412054495254412054554D4554455320),
  (0xA9DF, 0x4A4156414E4553452050414441204953454E2D4953454E20),
  (0xA9E0, 0x4D59414E4D4152204C4554544552205348414E2047484120),
  (0xA9E1, 0x4D59414E4D4152204C4554544552205348414E2043484120),
  (0xA9E2, 0x4D59414E4D4152204C4554544552205348414E204A484120),
  (0xA9E3, 0x4D59414E4D4152204C4554544552205348414E204E4E4120),
  (0xA9E4, 0x4D59414E4D4152204C4554544552205348414E2042484120),
  (0xA9E5, 0x4D59414E4D4152205349474E205348414E2053415720),
  (0xA9E6, 0x4D59414E4D4152204D4F444946494552204C4554544552205348414E2052454455504C49434154494F4E20),
  (0xA9E7, 0x4D59414E4D4152204C455454455220544149204C41494E47204E594120),
  (0xA9E8, 0x4D59414E4D4152204C455454455220544149204C41494E4720464120),
  (0xA9E9, 0x4D59414E4D4152204C455454455220544149204C41494E4720474120),
  (0xA9EA, 0x4D59414E4D4152204C455454455220544149204C41494E472047484120),
  (0xA9EB, 0x4D59414E4D4152204C455454455220544149204C41494E47204A4120),
  (0xA9EC, 0x4D59414E4D4152204C455454455220544149204C41494E47204A484120),
  (0xA9ED, 0x4D59414E4D4152204C455454455220544149204C41494E472044444120),
  (0xA9EE, 0x4D59414E4D4152204C455454455220544149204C41494E47204444484120),
  (0xA9EF, 0x4D59414E4D4152204C455454455220544149204C41494E47204E4E4120),
  (0xA9F0, 0x4D59414E4D415220544149204C41494E47204449474954205A45524F20),
  (0xA9F1, 0x4D59414E4D415220544149204C41494E47204449474954204F4E4520),
  (0xA9F2, 0x4D59414E4D415220544149204C41494E472044494749542054574F20),
  (0xA9F3, 0x4D59414E4D415220544149204C41494E4720444947495420544852454520),
  (0xA9F4, 0x4D59414E4D415220544149204C41494E4720444947495420464F555220),
  (0xA9F5, 0x4D59414E4D415220544149204C41494E47204449474954204649564520),
  (0xA9F6, 0x4D59414E4D415220544149204C41494E472044494749542053495820),
  (0xA9F7, 0x4D59414E4D415220544149204C41494E4720444947495420534556454E20),
  (0xA9F8, 0x4D59414E4D415220544149204C41494E4720444947495420454947485420),
  (0xA9F9, 0x4D59414E4D415220544149204C41494E47204449474954204E494E4520),
  (0xA9FA, 0x4D59414E4D4152204C455454455220544149204C41494E47204C4C4120),
  (0xA9FB, 0x4D59414E4D4152204C455454455220544149204C41494E4720444120),
  (0xA9FC, 0x4D59414E4D4152204C455454455220544149204C41494E472044484120),
  (0xA9FD, 0x4D59414E4D4152204C455454455220544149204C41494E4720424120),
  (0xA9FE, 0x4D59414E4D4152204C455454455220544149204C41494E472042484120),
  (0xAA00, 0x4348414D204C4554544552204120),
  (0xAA01, 0x4348414D204C4554544552204920),
  (0xAA02, 0x4348414D204C4554544552205520),
  (0xAA03, 0x4348414D204C4554544552204520),
  (0xAA04, 0x4348414D204C455454455220414920),
  (0xAA05, 0x4348414D204C4554544552204F20),
  (0xAA06, 0x4348414D204C4554544552204B4120),
  (0xAA07, 0x4348414D204C4554544552204B484120),
  (0xAA08, 0x4348414D204C455454455220474120),
  (0xAA09, 0x4348414D204C45545445522047484120),
  (0xAA0A, 0x4348414D204C4554544552204E47554520),
  (0xAA0B, 0x4348414D204C4554544552204E474120)]
def names_225 : List (Nat × Nat) := [
  (0xAA0C, 0x4348414D204C45545445522043484120),
  (0xAA0D, 0x4348414D204C4554544552204348484120),
  (0xAA0E, 0x4348414D204C4554544552204A4120),
  (0xAA0F, 0x4348414D204C4554544552204A484120),
  (0xAA10, 0x4348414D204C4554544552204E48554520),
  (0xAA11, 0x4348414D204C4554544552204E484120),
  (0xAA12, 0x4348414D204C4554544552204E484A4120),
  (0xAA13, 0x4348414D204C455454455220544120),
  (0xAA14, 0x4348414D204C45545445522054484120),
  (0xAA15, 0x4348414D204C455454455220444120),
  (0xAA16, 0x4348414D204C45545445522044484120),
  (0xAA17, 0x4348414D204C4554544552204E554520),
  (0xAA18, 0x4348414D204C4554544552204E4120),
  (0xAA19, 0x4348414D204C45545445522044444120),
  (0xAA1A, 0x4348414D204C455454455220504120),
  (0xAA1B, 0x4348414D204C45545445522050504120),
  (0xAA1C, 0x4348414D204C45545445522050484120),
  (0xAA1D, 0x4348414D204C455454455220424120),
  (0xAA1E, 0x4348414D204C45545445522042484120),
  (0xAA1F, 0x4348414D204C4554544552204D554520),
  (0xAA20, 0x4348414D204C4554544552204D4120),
  (0xAA21, 0x4348414D204C45545445522042424120),
  (0xAA22, 0x4348414D204C455454455220594120),
  (0xAA23, 0x4348414D204C455454455220524120),
  (0xAA24, 0x4348414D204C4554544552204C4120),
  (0xAA25, 0x4348414D204C455454455220564120),
  (0xAA26, 0x4348414D204C45545445522053534120),
  (0xAA27, 0x4348414D204C455454455220534120),
  (0xAA28, 0x4348414D204C455454455220484120),
  (0xAA29, 0x4348414D20564F57454C205349474E20414120),
  (0xAA2A, 0x4348414D20564F57454C205349474E204920),
  (0xAA2B, 0x4348414D20564F57454C205349474E20494920),
  (0xAA2C, 0x4348414D20564F57454C205349474E20454920),
  (0xAA2D, 0x4348414D20564F57454C205349474E205520),
  (0xAA2E, 0x4348414D20564F57454C205349474E204F4520),
  (0xAA2F, 0x4348414D20564F57454C205349474E204F20),
  (0xAA30, 0x4348414D20564F57454C205349474E20414920),
  (0xAA31, 0x4348414D20564F57454C205349474E20415520),
  (0xAA32, 0x4348414D20564F57454C205349474E20554520),
  (0xAA33, 0x4348414D20434F4E534F4E414E54205349474E20594120),
  (0xAA34, 0x4348414D20434F4E534F4E414E54205349474E20524120),
  (0xAA35, 0x4348414D20434F4E534F4E414E54205349474E204C4120),
  (0xAA36, 0x4348414D20434F4E534F4E414E54205349474E20574120),
  (0xAA40, 0x4348414D204C45545445522046494E414C204B20),
  (0xAA41, 0x4348414D204C45545445522046494E414C204720),
  (0xAA42, 0x4348414D204C45545445522046494E414C204E4720),
  (0xAA43, 0x4348414D20434F4E534F4E414E54205349474E2046494E414C204E4720),
  (0xAA44, 0x4348414D204C45545445522046494E414C20434820),
  (0xAA45, 0x4348414D204C45545445522046494E414C205420),
  (0xAA46, 0x4348414D204C45545445522046494E414C204E20),
  (0xAA47, 0x4348414D204C45545445522046494E414C205020),
  (0xAA48, 0x4348414D204C45545445522046494E414C205920),
  (0xAA49, 0x4348414D204C45545445522046494E414C205220),
  (0xAA4A, 0x4348414D204C45545445522046494E414C204C20),
  (0xAA4B, 0x4348414D204C45545445522046494E414C20535320),
  (0xAA4C, 0x4348414D20434F4E534F4E414E54205349474E2046494E414C204D20),
  (0xAA4D, 0x4348414D20434F4E534F4E414E54205349474E2046494E414C204820),
  (0xAA50, 0x4348414D204449474954205A45524F20),
  (0xAA51, 0x4348414D204449474954204F4E4520),
  (0xAA52, 0x4348414D2044494749542054574F20),
  (0xAA53, 0x4348414D20444947495420544852454520),
  (0xAA54, 0x4348414D20444947495420464F555220),
  (0xAA55, 0x4348414D204449474954204649564520),
  (0xAA56, 0x4348414D2044494749542053495820)]
def names_226 : List (Nat × Nat) := [
  (0xAA57, 0x4348414D20444947495420534556454E20),
  (0xAA58, 0x4348414D20444947495420454947485420),
  (0xAA59, 0x4348414D204449474954204E494E4520),
  (0xAA5C, 0x4348414D2050554E4354554154494F4E2053504952414C20),
  (0xAA5D, 0x4348414D2050554E4354554154494F4E2044414E444120),
  (0xAA5E, 0x4348414D2050554E4354554154494F4E20444F55424C452044414E444120),
  (0xAA5F, 0x4348414D2050554E4354554154494F4E20545249504C452044414E444120),
  (0xAA60, 0x4D59414E4D4152204C4554544552204B48414D544920474120),
  (0xAA61, 0x4D59414E4D4152204C4554544552204B48414D544920434120),
  (0xAA62, 0x4D59414E4D4152204C4554544552204B48414D54492043484120),
  (0xAA63, 0x4D59414E4D4152204C4554544552204B48414D5449204A4120),
  (0xAA64, 0x4D59414E4D4152204C4554544552204B48414D5449204A484120),
  (0xAA65, 0x4D59414E4D4152204C4554544552204B48414D5449204E594120),
  (0xAA66, 0x4D59414E4D4152204C4554544552204B48414D54492054544120),
  (0xAA67, 0x4D59414E4D4152204C4554544552204B48414D5449205454484120),
  (0xAA68, 0x4D59414E4D4152204C4554544552204B48414D54492044444120),
  (0xAA69, 0x4D59414E4D4152204C4554544552204B48414D5449204444484120),
  (0xAA6A, 0x4D59414E4D4152204C4554544552204B48414D54492044484120),
  (0xAA6B, 0x4D59414E4D4152204C4554544552204B48414D5449204E4120),
  (0xAA6C, 0x4D59414E4D4152204C4554544552204B48414D544920534120),
  (0xAA6D, 0x4D59414E4D4152204C4554544552204B48414D544920484120),
  (0xAA6E, 0x4D59414E4D4152204C4554544552204B48414D54492048484120),
  (0xAA6F, 0x4D59414E4D4152204C4554544552204B48414D544920464120),
  (0xAA70, 0x4D59414E4D4152204D4F444946494552204C4554544552204B48414D54492052454455504C49434154494F4E20),
  (0xAA71, 0x4D59414E4D4152204C4554544552204B48414D544920584120),
  (0xAA72, 0x4D59414E4D4152204C4554544552204B48414D5449205A4120),
  (0xAA73, 0x4D59414E4D4152204C4554544552204B48414D544920524120),
  (0xAA74, 0x4D59414E4D4152204C4F474F4752414D204B48414D5449204F415920),
  (0xAA75, 0x4D59414E4D4152204C4F474F4752414D204B48414D544920514E20),
  (0xAA76, 0x4D59414E4D4152204C4F474F4752414D204B48414D544920484D20),
  (0xAA77, 0x4D59414E4D41522053594D424F4C204149544F4E204558434C414D4154494F4E20),
  (0xAA78, 0x4D59414E4D41522053594D424F4C204149544F4E204F4E4520),
  (0xAA79, 0x4D59414E4D41522053594D424F4C204149544F4E2054574F20),
  (0xAA7A, 0x4D59414E4D4152204C4554544552204149544F4E20524120),
  (0xAA7B, 0x4D59414E4D4152205349474E2050414F204B4152454E20544F4E4520),
  (0xAA7C, 0x4D59414E4D4152205349474E20544149204C41494E4720544F4E452D3220),
  (0xAA7D, 0x4D59414E4D4152205349474E20544149204C41494E4720544F4E452D3520),
  (0xAA7E, 0x4D59414E4D4152204C455454455220534857452050414C41554E472043484120),
  (0xAA7F, 0x4D59414E4D4152204C455454455220534857452050414C41554E472053484120),
  (0xAA80, 0x5441492056494554204C4554544552204C4F57204B4F20),
  (0xAA81, 0x5441492056494554204C45545445522048494748204B4F20),
  (0xAA82, 0x5441492056494554204C4554544552204C4F57204B484F20),
  (0xAA83, 0x5441492056494554204C45545445522048494748204B484F20),
  (0xAA84, 0x5441492056494554204C4554544552204C4F57204B48484F20),
  (0xAA85, 0x5441492056494554204C45545445522048494748204B48484F20),
  (0xAA86, 0x5441492056494554204C4554544552204C4F5720474F20),
  (0xAA87, 0x5441492056494554204C4554544552204849474820474F20),
  (0xAA88, 0x5441492056494554204C4554544552204C4F57204E474F20),
  (0xAA89, 0x5441492056494554204C45545445522048494748204E474F20),
  (0xAA8A, 0x5441492056494554204C4554544552204C4F5720434F20),
  (0xAA8B, 0x5441492056494554204C4554544552204849474820434F20),
  (0xAA8C, 0x5441492056494554204C4554544552204C4F572043484F20),
  (0xAA8D, 0x5441492056494554204C455454455220484947482043484F20),
  (0xAA8E, 0x5441492056494554204C4554544552204C4F5720534F20),
  (0xAA8F, 0x5441492056494554204C4554544552204849474820534F20),
  (0xAA90, 0x5441492056494554204C4554544552204C4F57204E594F20),
  (0xAA91, 0x5441492056494554204C45545445522048494748204E594F20),
  (0xAA92, 0x5441492056494554204C4554544552204C4F5720444F20),
  (0xAA93, 0x5441492056494554204C4554544552204849474820444F20),
  (0xAA94, 0x5441492056494554204C4554544552204C4F5720544F20),
  (0xAA95, 0x5441492056494554204C4554544552204849474820544F20),
  (0xAA96, 0x5441492056494554204C4554544552204C4F572054484F20),
  (0xAA97, 0x5441492056494554204C455454455220484947482054484F20),
  (0xAA98, 0x5441492056494554204C4554544552204C4F57204E4F20)]
def names_227 : List (Nat × Nat) := [
  (0xAA99, 0x5441492056494554204C45545445522048494748204E4F20),
  (0xAA9A, 0x5441492056494554204C4554544552204C4F5720424F20),
  (0xAA9B, 0x5441492056494554204C4554544552204849474820424F20),
  (0xAA9C, 0x5441492056494554204C4554544552204C4F5720504F20),
  (0xAA9D, 0x5441492056494554204C4554544552204849474820504F20),
  (0xAA9E, 0x5441492056494554204C4554544552204C4F572050484F20),
  (0xAA9F, 0x5441492056494554204C455454455220484947482050484F20),
  (0xAAA0, 0x5441492056494554204C4554544552204C4F5720464F20),
  (0xAAA1, 0x5441492056494554204C4554544552204849474820464F20),
  (0xAAA2, 0x5441492056494554204C4554544552204C4F57204D4F20),
  (0xAAA3, 0x5441492056494554204C45545445522048494748204D4F20),
  (0xAAA4, 0x5441492056494554204C4554544552204C4F5720594F20),
  (0xAAA5, 0x5441492056494554204C4554544552204849474820594F20),
  (0xAAA6, 0x5441492056494554204C4554544552204C4F5720524F20),
  (0xAAA7, 0x5441492056494554204C4554544552204849474820524F20),
  (0xAAA8, 0x5441492056494554204C4554544552204C4F57204C4F20),
  (0xAAA9, 0x5441492056494554204C45545445522048494748204C4F20),
  (0xAAAA, 0x5441492056494554204C4554544552204C4F5720564F20),
  (0xAAAB, 0x5441492056494554204C4554544552204849474820564F20),
  (0xAAAC, 0x5441492056494554204C4554544552204C4F5720484F20),
  (0xAAAD, 0x5441492056494554204C4554544552204849474820484F20),
  (0xAAAE, 0x5441492056494554204C4554544552204C4F57204F20),
  (0xAAAF, 0x5441492056494554204C45545445522048494748204F20),
  (0xAAB0, 0x5441492056494554204D4149204B414E4720),
  (0xAAB1, 0x544149205649455420564F57454C20414120),
  (0xAAB2, 0x544149205649455420564F57454C204920),
  (0xAAB3, 0x544149205649455420564F57454C20554520),
  (0xAAB4, 0x544149205649455420564F57454C205520),
  (0xAAB5, 0x544149205649455420564F57454C204520),
  (0xAAB6, 0x544149205649455420564F57454C204F20),
  (0xAAB7, 0x5441492056494554204D4149204B48495420),
  (0xAAB8, 0x544149205649455420564F57454C20494120),
  (0xAAB9, 0x544149205649455420564F57454C2055454120),
  (0xAABA, 0x544149205649455420564F57454C20554120),
  (0xAABB, 0x544149205649455420564F57454C2041554520),
  (0xAABC, 0x544149205649455420564F57454C20415920),
  (0xAABD, 0x544149205649455420564F57454C20414E20),
  (0xAABE, 0x544149205649455420564F57454C20414D20),
  (0xAABF, 0x544149205649455420544F4E45204D414920454B20),
  (0xAAC0, 0x544149205649455420544F4E45204D4149204E55454E4720),
  (0xAAC1, 0x544149205649455420544F4E45204D41492054484F20),
  (0xAAC2, 0x544149205649455420544F4E45204D414920534F4E4720),
  (0xAADB, 0x54414920564945542053594D424F4C204B4F4E20),
  (0xAADC, 0x54414920564945542053594D424F4C204E55454E4720),
  (0xAADD, 0x54414920564945542053594D424F4C2053414D20),
  (0xAADE, 0x54414920564945542053594D424F4C20484F20484F4920),
  (0xAADF, 0x54414920564945542053594D424F4C204B4F49204B4F4920),
  (0xAAE0, 0x4D4545544549204D4159454B204C4554544552204520),
  (0xAAE1, 0x4D4545544549204D4159454B204C4554544552204F20),
  (0xAAE2, 0x4D4545544549204D4159454B204C45545445522043484120),
  (0xAAE3, 0x4D4545544549204D4159454B204C4554544552204E594120),
  (0xAAE4, 0x4D4545544549204D4159454B204C45545445522054544120),
  (0xAAE5, 0x4D4545544549204D4159454B204C4554544552205454484120),
  (0xAAE6, 0x4D4545544549204D4159454B204C45545445522044444120),
  (0xAAE7, 0x4D4545544549204D4159454B204C4554544552204444484120),
  (0xAAE8, 0x4D4545544549204D4159454B204C4554544552204E4E4120),
  (0xAAE9, 0x4D4545544549204D4159454B204C45545445522053484120),
  (0xAAEA, 0x4D4545544549204D4159454B204C45545445522053534120),
  (0xAAEB, 0x4D4545544549204D4159454B20564F57454C205349474E20494920),
  (0xAAEC, 0x4D4545544549204D4159454B20564F57454C205349474E20555520),
  (0xAAED, 0x4D4545544549204D4159454B20564F57454C205349474E2041414920),
  (0xAAEE, 0x4D4545544549204D4159454B20564F57454C205349474E20415520),
  (0xAAEF, 0x4D4545544549204D4159454B20564F57454C205349474E2041415520),
  (0xAAF0, 0x4D4545544549204D4159454B20434845494B48414E20)]
def names_228 : List (Nat × Nat) := [
  (0xAAF1, 0x4D4545544549204D4159454B204148414E47204B485544414D20),
  (0xAAF2, 0x4D4545544549204D4159454B20414E4A4920),
  (0xAAF3, 0x4D4545544549204D4159454B2053594C4C41424C452052455045544954494F4E204D41524B20),
  (0xAAF4, 0x4D4545544549204D4159454B20574F52442052455045544954494F4E204D41524B20),
  (0xAAF5, 0x4D4545544549204D4159454B20564F57454C205349474E205649534152474120),
  (0xAAF6, 0x4D4545544549204D4159454B20564952414D4120),
  (0xAB01, 0x455448494F5049432053594C4C41424C45205454485520),
  (0xAB02, 0x455448494F5049432053594C4C41424C45205454484920),
  (0xAB03, 0x455448494F5049432053594C4C41424C4520545448414120),
  (0xAB04, 0x455448494F5049432053594C4C41424C4520545448454520),
  (0xAB05, 0x455448494F5049432053594C4C41424C45205454484520),
  (0xAB06, 0x455448494F5049432053594C4C41424C45205454484F20),
  (0xAB09, 0x455448494F5049432053594C4C41424C45204444485520),
  (0xAB0A, 0x455448494F5049432053594C4C41424C45204444484920),
  (0xAB0B, 0x455448494F5049432053594C4C41424C4520444448414120),
  (0xAB0C, 0x455448494F5049432053594C4C41424C4520444448454520),
  (0xAB0D, 0x455448494F5049432053594C4C41424C45204444484520),
  (0xAB0E, 0x455448494F5049432053594C4C41424C45204444484F20),
  (0xAB11, 0x455448494F5049432053594C4C41424C4520445A5520),
  (0xAB12, 0x455448494F5049432053594C4C41424C4520445A4920),
  (0xAB13, 0x455448494F5049432053594C4C41424C4520445A414120),
  (0xAB14, 0x455448494F5049432053594C4C41424C4520445A454520),
  (0xAB15, 0x455448494F5049432053594C4C41424C4520445A4520),
  (0xAB16, 0x455448494F5049432053594C4C41424C4520445A4F20),
  (0xAB20, 0x455448494F5049432053594C4C41424C4520434348484120),
  (0xAB21, 0x455448494F5049432053594C4C41424C4520434348485520),
  (0xAB22, 0x455448494F5049432053594C4C41424C4520434348484920),
  (0xAB23, 0x455448494F5049432053594C4C41424C452043434848414120),
  (0xAB24, 0x455448494F5049432053594C4C41424C452043434848454520),
  (0xAB25, 0x455448494F5049432053594C4C41424C4520434348484520),
  (0xAB26, 0x455448494F5049432053594C4C41424C4520434348484F20),
  (0xAB28, 0x455448494F5049432053594C4C41424C452042424120),
  (0xAB29, 0x455448494F5049432053594C4C41424C452042425520),
  (0xAB2A, 0x455448494F5049432053594C4C41424C452042424920),
  (0xAB2B, 0x455448494F5049432053594C4C41424C45204242414120),
  (0xAB2C, 0x455448494F5049432053594C4C41424C45204242454520),
  (0xAB2D, 0x455448494F5049432053594C4C41424C452042424520),
  (0xAB2E, 0x455448494F5049432053594C4C41424C452042424F20),
  (0xAB30, 0x4C4154494E20534D414C4C204C45545445522042415252454420414C50484120),
  (0xAB31, 0x4C4154494E20534D414C4C204C455454455220412052455645525345442D534348574120),
  (0xAB32, 0x4C4154494E20534D414C4C204C455454455220424C41434B4C4554544552204520),
  (0xAB33, 0x4C4154494E20534D414C4C204C455454455220424152524544204520),
  (0xAB34, 0x4C4154494E20534D414C4C204C45545445522045205749544820464C4F555249534820),
  (0xAB35, 0x4C4154494E20534D414C4C204C4554544552204C454E4953204620),
  (0xAB36, 0x4C4154494E20534D414C4C204C455454455220534352495054204720574954482043524F535345442D5441494C20),
  (0xAB37, 0x4C4154494E20534D414C4C204C4554544552204C205749544820494E564552544544204C415A59205320),
  (0xAB38, 0x4C4154494E20534D414C4C204C4554544552204C205749544820444F55424C45204D4944444C452054494C444520),
  (0xAB39, 0x4C4154494E20534D414C4C204C4554544552204C2057495448204D4944444C452052494E4720),
  (0xAB3A, 0x4C4154494E20534D414C4C204C4554544552204D20574954482043524F535345442D5441494C20),
  (0xAB3B, 0x4C4154494E20534D414C4C204C4554544552204E20574954482043524F535345442D5441494C20),
  (0xAB3C, 0x4C4154494E20534D414C4C204C455454455220454E4720574954482043524F535345442D5441494C20),
  (0xAB3D, 0x4C4154494E20534D414C4C204C455454455220424C41434B4C4554544552204F20),
  (0xAB3E, 0x4C4154494E20534D414C4C204C455454455220424C41434B4C4554544552204F2057495448205354524F4B4520),
  (0xAB3F, 0x4C4154494E20534D414C4C204C4554544552204F50454E204F2057495448205354524F4B4520),
  (0xAB40, 0x4C4154494E20534D414C4C204C455454455220494E564552544544204F4520),
  (0xAB41, 0x4C4154494E20534D414C4C204C4554544552205455524E4544204F452057495448205354524F4B4520),
  (0xAB42, 0x4C4154494E20534D414C4C204C4554544552205455524E4544204F45205749544820484F52495A4F4E54414C205354524F4B4520),
  (0xAB43, 0x4C4154494E20534D414C4C204C4554544552205455524E4544204F204F50454E2D4F20),
  (0xAB44, 0x4C4154494E20534D414C4C204C4554544552205455524E4544204F204F50454E2D4F2057495448205354524F4B4520),
  (0xAB45, 0x4C4154494E20534D414C4C204C45545445522053544952525550205220),
  (0xAB46, 0x4C4154494E204C455454455220534D414C4C204341504954414C20522057495448205249474854204C454720),
  (0xAB47, 0x4C4154494E20534D414C4C204C4554544552205220574954484F55542048414E444C4520),
  (0xAB48, 0x4C4154494E20534D414C4C204C455454455220444F55424C45205220),
  (0xAB49, 0x4C4154494E20534D414C4C204C4554544552205220574954482043524F535345442D5441494C20)]
def names_229 : List (Nat × Nat) := [
  (0xAB4A, 0x4C4154494E20534D414C4C204C455454455220444F55424C45205220574954482043524F535345442D5441494C20),
  (0xAB4B, 0x4C4154494E20534D414C4C204C455454455220534352495054205220),
  (0xAB4C, 0x4C4154494E20534D414C4C204C455454455220534352495054205220574954482052494E4720),
  (0xAB4D, 0x4C4154494E20534D414C4C204C455454455220424153454C494E452045534820),
  (0xAB4E, 0x4C4154494E20534D414C4C204C4554544552205520574954482053484F5254205249474854204C454720),
  (0xAB4F, 0x4C4154494E20534D414C4C204C455454455220552042415220574954482053484F5254205249474854204C454720),
  (0xAB50, 0x4C4154494E20534D414C4C204C455454455220554920),
  (0xAB51, 0x4C4154494E20534D414C4C204C4554544552205455524E454420554920),
  (0xAB52, 0x4C4154494E20534D414C4C204C455454455220552057495448204C45465420484F4F4B20),
  (0xAB53, 0x4C4154494E20534D414C4C204C45545445522043484920),
  (0xAB54, 0x4C4154494E20534D414C4C204C4554544552204348492057495448204C4F572052494748542052494E4720),
  (0xAB55, 0x4C4154494E20534D414C4C204C4554544552204348492057495448204C4F57204C45465420534552494620),
  (0xAB56, 0x4C4154494E20534D414C4C204C455454455220582057495448204C4F572052494748542052494E4720),
  (0xAB57, 0x4C4154494E20534D414C4C204C455454455220582057495448204C4F4E47204C454654204C454720),
  (0xAB58, 0x4C4154494E20534D414C4C204C455454455220582057495448204C4F4E47204C454654204C454720414E44204C4F572052494748542052494E4720),
  (0xAB59, 0x4C4154494E20534D414C4C204C455454455220582057495448204C4F4E47204C454654204C4547205749544820534552494620),
  (0xAB5A, 0x4C4154494E20534D414C4C204C4554544552205920574954482053484F5254205249474854204C454720),
  (0xAB5B, 0x4D4F444946494552204252455645205749544820494E56455254454420425245564520),
  (0xAB5C, 0x4D4F444946494552204C455454455220534D414C4C2048454E4720),
  (0xAB5D, 0x4D4F444946494552204C455454455220534D414C4C204C205749544820494E564552544544204C415A59205320),
  (0xAB5E, 0x4D4F444946494552204C455454455220534D414C4C204C2057495448204D4944444C452054494C444520),
  (0xAB5F, 0x4D4F444946494552204C455454455220534D414C4C20552057495448204C45465420484F4F4B20),
  (0xAB60, 0x4C4154494E20534D414C4C204C45545445522053414B48412059415420),
  (0xAB61, 0x4C4154494E20534D414C4C204C455454455220494F544946494544204520),
  (0xAB62, 0x4C4154494E20534D414C4C204C4554544552204F50454E204F4520),
  (0xAB63, 0x4C4154494E20534D414C4C204C455454455220554F20),
  (0xAB64, 0x4C4154494E20534D414C4C204C455454455220494E56455254454420414C50484120),
  (0xAB65, 0x475245454B204C455454455220534D414C4C204341504954414C204F4D45474120),
  (0xAB70, 0x434845524F4B454520534D414C4C204C4554544552204120),
  (0xAB71, 0x434845524F4B454520534D414C4C204C4554544552204520),
  (0xAB72, 0x434845524F4B454520534D414C4C204C4554544552204920),
  (0xAB73, 0x434845524F4B454520534D414C4C204C4554544552204F20),
  (0xAB74, 0x434845524F4B454520534D414C4C204C4554544552205520),
  (0xAB75, 0x434845524F4B454520534D414C4C204C4554544552205620),
  (0xAB76, 0x434845524F4B454520534D414C4C204C455454455220474120),
  (0xAB77, 0x434845524F4B454520534D414C4C204C4554544552204B4120),
  (0xAB78, 0x434845524F4B454520534D414C4C204C455454455220474520),
  (0xAB79, 0x434845524F4B454520534D414C4C204C455454455220474920),
  (0xAB7A, 0x434845524F4B454520534D414C4C204C455454455220474F20),
  (0xAB7B, 0x434845524F4B454520534D414C4C204C455454455220475520),
  (0xAB7C, 0x434845524F4B454520534D414C4C204C455454455220475620),
  (0xAB7D, 0x434845524F4B454520534D414C4C204C455454455220484120),
  (0xAB7E, 0x434845524F4B454520534D414C4C204C455454455220484520),
  (0xAB7F, 0x434845524F4B454520534D414C4C204C455454455220484920),
  (0xAB80, 0x434845524F4B454520534D414C4C204C455454455220484F20),
  (0xAB81, 0x434845524F4B454520534D414C4C204C455454455220485520),
  (0xAB82, 0x434845524F4B454520534D414C4C204C455454455220485620),
  (0xAB83, 0x434845524F4B454520534D414C4C204C4554544552204C4120),
  (0xAB84, 0x434845524F4B454520534D414C4C204C4554544552204C4520),
  (0xAB85, 0x434845524F4B454520534D414C4C204C4554544552204C4920),
  (0xAB86, 0x434845524F4B454520534D414C4C204C4554544552204C4F20),
  (0xAB87, 0x434845524F4B454520534D414C4C204C4554544552204C5520),
  (0xAB88, 0x434845524F4B454520534D414C4C204C4554544552204C5620),
  (0xAB89, 0x434845524F4B454520534D414C4C204C4554544552204D4120),
  (0xAB8A, 0x434845524F4B454520534D414C4C204C4554544552204D4520),
  (0xAB8B, 0x434845524F4B454520534D414C4C204C4554544552204D4920),
  (0xAB8C, 0x434845524F4B454520534D414C4C204C4554544552204D4F20),
  (0xAB8D, 0x434845524F4B454520534D414C4C204C4554544552204D5520),
  (0xAB8E, 0x434845524F4B454520534D414C4C204C4554544552204E4120),
  (0xAB8F, 0x434845524F4B454520534D414C4C204C455454455220484E4120),
  (0xAB90, 0x434845524F4B454520534D414C4C204C4554544552204E414820),
  (0xAB91, 0x434845524F4B454520534D414C4C204C4554544552204E4520),
  (0xAB92, 0x434845524F4B454520534D414C4C204C4554544552204E4920),
  (0xAB93, 0x434845524F4B454520534D414C4C204C4554544552204E4F20)]
def names_230 : List (Nat × Nat) := [
  (0xAB94, 0x434845524F4B454520534D414C4C204C4554544552204E5520),
  (0xAB95, 0x434845524F4B454520534D414C4C204C4554544552204E5620),
  (0xAB96, 0x434845524F4B454520534D414C4C204C45545445522051554120),
  (0xAB97, 0x434845524F4B454520534D414C4C204C45545445522051554520),
  (0xAB98, 0x434845524F4B454520534D414C4C204C45545445522051554920),
  (0xAB99, 0x434845524F4B454520534D414C4C204C45545445522051554F20),
  (0xAB9A, 0x434845524F4B454520534D414C4C204C45545445522051555520),
  (0xAB9B, 0x434845524F4B454520534D414C4C204C45545445522051555620),
  (0xAB9C, 0x434845524F4B454520534D414C4C204C455454455220534120),
  (0xAB9D, 0x434845524F4B454520534D414C4C204C4554544552205320),
  (0xAB9E, 0x434845524F4B454520534D414C4C204C455454455220534520),
  (0xAB9F, 0x434845524F4B454520534D414C4C204C455454455220534920),
  (0xABA0, 0x434845524F4B454520534D414C4C204C455454455220534F20),
  (0xABA1, 0x434845524F4B454520534D414C4C204C455454455220535520),
  (0xABA2, 0x434845524F4B454520534D414C4C204C455454455220535620),
  (0xABA3, 0x434845524F4B454520534D414C4C204C455454455220444120),
  (0xABA4, 0x434845524F4B454520534D414C4C204C455454455220544120),
  (0xABA5, 0x434845524F4B454520534D414C4C204C455454455220444520),
  (0xABA6, 0x434845524F4B454520534D414C4C204C455454455220544520),
  (0xABA7, 0x434845524F4B454520534D414C4C204C455454455220444920),
  (0xABA8, 0x434845524F4B454520534D414C4C204C455454455220544920),
  (0xABA9, 0x434845524F4B454520534D414C4C204C455454455220444F20),
  (0xABAA, 0x434845524F4B454520534D414C4C204C455454455220445520),
  (0xABAB, 0x434845524F4B454520534D414C4C204C455454455220445620),
  (0xABAC, 0x434845524F4B454520534D414C4C204C455454455220444C4120),
  (0xABAD, 0x434845524F4B454520534D414C4C204C455454455220544C4120),
  (0xABAE, 0x434845524F4B454520534D414C4C204C455454455220544C4520),
  (0xABAF, 0x434845524F4B454520534D414C4C204C455454455220544C4920),
  (0xABB0, 0x434845524F4B454520534D414C4C204C455454455220544C4F20),
  (0xABB1, 0x434845524F4B454520534D414C4C204C455454455220544C5520),
  (0xABB2, 0x434845524F4B454520534D414C4C204C455454455220544C5620),
  (0xABB3, 0x434845524F4B454520534D414C4C204C45545445522054534120),
  (0xABB4, 0x434845524F4B454520534D414C4C204C45545445522054534520),
  (0xABB5, 0x434845524F4B454520534D414C4C204C45545445522054534920),
  (0xABB6, 0x434845524F4B454520534D414C4C204C45545445522054534F20),
  (0xABB7, 0x434845524F4B454520534D414C4C204C45545445522054535520),
  (0xABB8, 0x434845524F4B454520534D414C4C204C45545445522054535620),
  (0xABB9, 0x434845524F4B454520534D414C4C204C455454455220574120),
  (0xABBA, 0x434845524F4B454520534D414C4C204C455454455220574520),
  (0xABBB, 0x434845524F4B454520534D414C4C204C455454455220574920),
  (0xABBC, 0x434845524F4B454520534D414C4C204C455454455220574F20),
  (0xABBD, 0x434845524F4B454520534D414C4C204C455454455220575520),
  (0xABBE, 0x434845524F4B454520534D414C4C204C455454455220575620),
  (0xABBF, 0x434845524F4B454520534D414C4C204C455454455220594120),
  (0xABC0, 0x4D4545544549204D4159454B204C4554544552204B4F4B20),
  (0xABC1, 0x4D4545544549204D4159454B204C45545445522053414D20),
  (0xABC2, 0x4D4545544549204D4159454B204C4554544552204C414920),
  (0xABC3, 0x4D4545544549204D4159454B204C4554544552204D495420),
  (0xABC4, 0x4D4545544549204D4159454B204C455454455220504120),
  (0xABC5, 0x4D4545544549204D4159454B204C4554544552204E4120),
  (0xABC6, 0x4D4545544549204D4159454B204C4554544552204348494C20),
  (0xABC7, 0x4D4545544549204D4159454B204C45545445522054494C20),
  (0xABC8, 0x4D4545544549204D4159454B204C4554544552204B484F5520),
  (0xABC9, 0x4D4545544549204D4159454B204C4554544552204E474F5520),
  (0xABCA, 0x4D4545544549204D4159454B204C45545445522054484F5520),
  (0xABCB, 0x4D4545544549204D4159454B204C45545445522057414920),
  (0xABCC, 0x4D4545544549204D4159454B204C45545445522059414E4720),
  (0xABCD, 0x4D4545544549204D4159454B204C45545445522048554B20),
  (0xABCE, 0x4D4545544549204D4159454B204C455454455220554E20),
  (0xABCF, 0x4D4545544549204D4159454B204C4554544552204920),
  (0xABD0, 0x4D4545544549204D4159454B204C4554544552205048414D20),
  (0xABD1, 0x4D4545544549204D4159454B204C455454455220415449594120),
  (0xABD2, 0x4D4545544549204D4159454B204C455454455220474F4B20),
  (0xABD3, 0x4D4545544549204D4159454B204C4554544552204A48414D20)]
def names_231 : List (Nat × Nat) := [
  (0xABD4, 0x4D4545544549204D4159454B204C45545445522052414920),
  (0xABD5, 0x4D4545544549204D4159454B204C455454455220424120),
  (0xABD6, 0x4D4545544549204D4159454B204C4554544552204A494C20),
  (0xABD7, 0x4D4545544549204D4159454B204C45545445522044494C20),
  (0xABD8, 0x4D4545544549204D4159454B204C45545445522047484F5520),
  (0xABD9, 0x4D4545544549204D4159454B204C45545445522044484F5520),
  (0xABDA, 0x4D4545544549204D4159454B204C4554544552204248414D20),
  (0xABDB, 0x4D4545544549204D4159454B204C4554544552204B4F4B204C4F4E53554D20),
  (0xABDC, 0x4D4545544549204D4159454B204C4554544552204C4149204C4F4E53554D20),
  (0xABDD, 0x4D4545544549204D4159454B204C4554544552204D4954204C4F4E53554D20),
  (0xABDE, 0x4D4545544549204D4159454B204C4554544552205041204C4F4E53554D20),
  (0xABDF, 0x4D4545544549204D4159454B204C4554544552204E41204C4F4E53554D20),
  (0xABE0, 0x4D4545544549204D4159454B204C45545445522054494C204C4F4E53554D20),
  (0xABE1, 0x4D4545544549204D4159454B204C4554544552204E474F55204C4F4E53554D20),
  (0xABE2, 0x4D4545544549204D4159454B204C45545445522049204C4F4E53554D20),
  (0xABE3, 0x4D4545544549204D4159454B20564F57454C205349474E204F4E415020),
  (0xABE4, 0x4D4545544549204D4159454B20564F57454C205349474E20494E415020),
  (0xABE5, 0x4D4545544549204D4159454B20564F57454C205349474E20414E415020),
  (0xABE6, 0x4D4545544549204D4159454B20564F57454C205349474E2059454E415020),
  (0xABE7, 0x4D4545544549204D4159454B20564F57454C205349474E20534F554E415020),
  (0xABE8, 0x4D4545544549204D4159454B20564F57454C205349474E20554E415020),
  (0xABE9, 0x4D4545544549204D4159454B20564F57454C205349474E20434845494E415020),
  (0xABEA, 0x4D4545544549204D4159454B20564F57454C205349474E204E554E4720),
  (0xABEB, 0x4D4545544549204D4159454B20434845494B48454920),
  (0xABEC, 0x4D4545544549204D4159454B204C554D204959454B20),
  (0xABED, 0x4D4545544549204D4159454B204150554E204959454B20),
  (0xABF0, 0x4D4545544549204D4159454B204449474954205A45524F20),
  (0xABF1, 0x4D4545544549204D4159454B204449474954204F4E4520),
  (0xABF2, 0x4D4545544549204D4159454B2044494749542054574F20),
  (0xABF3, 0x4D4545544549204D4159454B20444947495420544852454520),
  (0xABF4, 0x4D4545544549204D4159454B20444947495420464F555220),
  (0xABF5, 0x4D4545544549204D4159454B204449474954204649564520),
  (0xABF6, 0x4D4545544549204D4159454B2044494749542053495820),
  (0xABF7, 0x4D4545544549204D4159454B20444947495420534556454E20),
  (0xABF8, 0x4D4545544549204D4159454B20444947495420454947485420),
  (0xABF9, 0x4D4545544549204D4159454B204449474954204E494E4520),
  (0xD7B0, 0x48414E47554C204A554E4753454F4E47204F2D59454F20),
  (0xD7B1, 0x48414E47554C204A554E4753454F4E47204F2D4F2D4920),
  (0xD7B2, 0x48414E47554C204A554E4753454F4E4720594F2D4120),
  (0xD7B3, 0x48414E47554C204A554E4753454F4E4720594F2D414520),
  (0xD7B4, 0x48414E47554C204A554E4753454F4E4720594F2D454F20),
  (0xD7B5, 0x48414E47554C204A554E4753454F4E4720552D59454F20),
  (0xD7B6, 0x48414E47554C204A554E4753454F4E4720552D492D4920),
  (0xD7B7, 0x48414E47554C204A554E4753454F4E472059552D414520),
  (0xD7B8, 0x48414E47554C204A554E4753454F4E472059552D4F20),
  (0xD7B9, 0x48414E47554C204A554E4753454F4E472045552D4120),
  (0xD7BA, 0x48414E47554C204A554E4753454F4E472045552D454F20),
  (0xD7BB, 0x48414E47554C204A554E4753454F4E472045552D4520),
  (0xD7BC, 0x48414E47554C204A554E4753454F4E472045552D4F20),
  (0xD7BD, 0x48414E47554C204A554E4753454F4E4720492D59412D4F20),
  (0xD7BE, 0x48414E47554C204A554E4753454F4E4720492D59414520),
  (0xD7BF, 0x48414E47554C204A554E4753454F4E4720492D59454F20),
  (0xD7C0, 0x48414E47554C204A554E4753454F4E4720492D594520),
  (0xD7C1, 0x48414E47554C204A554E4753454F4E4720492D4F2D4920),
  (0xD7C2, 0x48414E47554C204A554E4753454F4E4720492D594F20),
  (0xD7C3, 0x48414E47554C204A554E4753454F4E4720492D595520),
  (0xD7C4, 0x48414E47554C204A554E4753454F4E4720492D4920),
  (0xD7C5, 0x48414E47554C204A554E4753454F4E472041524145412D4120),
  (0xD7C6, 0x48414E47554C204A554E4753454F4E472041524145412D4520),
  (0xD7CB, 0x48414E47554C204A4F4E4753454F4E47204E4945554E2D524945554C20),
  (0xD7CC, 0x48414E47554C204A4F4E4753454F4E47204E4945554E2D4348494555434820),
  (0xD7CD, 0x48414E47554C204A4F4E4753454F4E47205353414E4754494B45555420),
  (0xD7CE, 0x48414E47554C204A4F4E4753454F4E47205353414E4754494B4555542D504945555020),
  (0xD7CF, 0x48414E47554C204A4F4E4753454F4E472054494B4555542D504945555020)]
def names_232 : List (Nat × Nat) := [
  (0xD7D0, 0x48414E47554C204A4F4E4753454F4E472054494B4555542D53494F5320),
  (0xD7D1, 0x48414E47554C204A4F4E4753454F4E472054494B4555542D53494F532D4B4959454F4B20),
  (0xD7D2, 0x48414E47554C204A4F4E4753454F4E472054494B4555542D434945554320),
  (0xD7D3, 0x48414E47554C204A4F4E4753454F4E472054494B4555542D4348494555434820),
  (0xD7D4, 0x48414E47554C204A4F4E4753454F4E472054494B4555542D5448494555544820),
  (0xD7D5, 0x48414E47554C204A4F4E4753454F4E4720524945554C2D5353414E474B4959454F4B20),
  (0xD7D6, 0x48414E47554C204A4F4E4753454F4E4720524945554C2D4B4959454F4B2D484945554820),
  (0xD7D7, 0x48414E47554C204A4F4E4753454F4E47205353414E47524945554C2D4B484945554B4820),
  (0xD7D8, 0x48414E47554C204A4F4E4753454F4E4720524945554C2D4D4945554D2D484945554820),
  (0xD7D9, 0x48414E47554C204A4F4E4753454F4E4720524945554C2D50494555502D54494B45555420),
  (0xD7DA, 0x48414E47554C204A4F4E4753454F4E4720524945554C2D50494555502D5048494555504820),
  (0xD7DB, 0x48414E47554C204A4F4E4753454F4E4720524945554C2D5945534945554E4720),
  (0xD7DC, 0x48414E47554C204A4F4E4753454F4E4720524945554C2D59454F52494E48494555482D484945554820),
  (0xD7DD, 0x48414E47554C204A4F4E4753454F4E47204B415059454F554E524945554C20),
  (0xD7DE, 0x48414E47554C204A4F4E4753454F4E47204D4945554D2D4E4945554E20),
  (0xD7DF, 0x48414E47554C204A4F4E4753454F4E47204D4945554D2D5353414E474E4945554E20),
  (0xD7E0, 0x48414E47554C204A4F4E4753454F4E47205353414E474D4945554D20),
  (0xD7E1, 0x48414E47554C204A4F4E4753454F4E47204D4945554D2D50494555502D53494F5320),
  (0xD7E2, 0x48414E47554C204A4F4E4753454F4E47204D4945554D2D434945554320),
  (0xD7E3, 0x48414E47554C204A4F4E4753454F4E472050494555502D54494B45555420),
  (0xD7E4, 0x48414E47554C204A4F4E4753454F4E472050494555502D524945554C2D5048494555504820),
  (0xD7E5, 0x48414E47554C204A4F4E4753454F4E472050494555502D4D4945554D20),
  (0xD7E6, 0x48414E47554C204A4F4E4753454F4E47205353414E47504945555020),
  (0xD7E7, 0x48414E47554C204A4F4E4753454F4E472050494555502D53494F532D54494B45555420),
  (0xD7E8, 0x48414E47554C204A4F4E4753454F4E472050494555502D434945554320),
  (0xD7E9, 0x48414E47554C204A4F4E4753454F4E472050494555502D4348494555434820),
  (0xD7EA, 0x48414E47554C204A4F4E4753454F4E472053494F532D4D4945554D20),
  (0xD7EB, 0x48414E47554C204A4F4E4753454F4E472053494F532D4B415059454F554E504945555020),
  (0xD7EC, 0x48414E47554C204A4F4E4753454F4E47205353414E4753494F532D4B4959454F4B20),
  (0xD7ED, 0x48414E47554C204A4F4E4753454F4E47205353414E4753494F532D54494B45555420),
  (0xD7EE, 0x48414E47554C204A4F4E4753454F4E472053494F532D50414E53494F5320),
  (0xD7EF, 0x48414E47554C204A4F4E4753454F4E472053494F532D434945554320),
  (0xD7F0, 0x48414E47554C204A4F4E4753454F4E472053494F532D4348494555434820),
  (0xD7F1, 0x48414E47554C204A4F4E4753454F4E472053494F532D5448494555544820),
  (0xD7F2, 0x48414E47554C204A4F4E4753454F4E472053494F532D484945554820),
  (0xD7F3, 0x48414E47554C204A4F4E4753454F4E472050414E53494F532D504945555020),
  (0xD7F4, 0x48414E47554C204A4F4E4753454F4E472050414E53494F532D4B415059454F554E504945555020),
  (0xD7F5, 0x48414E47554C204A4F4E4753454F4E47205945534945554E472D4D4945554D20),
  (0xD7F6, 0x48414E47554C204A4F4E4753454F4E47205945534945554E472D484945554820),
  (0xD7F7, 0x48414E47554C204A4F4E4753454F4E472043494555432D504945555020),
  (0xD7F8, 0x48414E47554C204A4F4E4753454F4E472043494555432D5353414E47504945555020),
  (0xD7F9, 0x48414E47554C204A4F4E4753454F4E47205353414E47434945554320),
  (0xD7FA, 0x48414E47554C204A4F4E4753454F4E4720504849455550482D53494F5320),
  (0xD7FB, 0x48414E47554C204A4F4E4753454F4E4720504849455550482D5448494555544820),
  (0xF900, 0x434A4B20434F4D5041544942494C495459204944454F47524150482D4639303020),
  (0xF901, 0x434A4B20434F4D5041544942494C495459204944454F47524150482D4639303120),
  (0xF902, 0x434A4B20434F4D5041544942494C495459204944454F47524150482D4639303220),
  (0xF903, 0x434A4B20434F4D5041544942494C495459204944454F47524150482D4639303320),
  (0xF904, 0x434A4B20434F4D5041544942494C495459204944454F47524150482D4639303420),
  (0xF905, 0x434A4B20434F4D5041544942494C495459204944454F47524150482D4639303520),
  (0xF906, 0x434A4B20434F4D5041544942494C495459204944454F47524150482D4639303620),
  (0xF907, 0x434A4B20434F4D5041544942494C495459204944454F47524150482D4639303720),
  (0xF908, 0x434A4B20434F4D5041544942494C495459204944454F47524150482D4639303820),
  (0xF909, 0x434A4B20434F4D5041544942494C495459204944454F47524150482D4639303920),
  (0xF90A, 0x434A4B20434F4D5041544942494C495459204944454F47524150482D4639304120),
  (0xF90B, 0x434A4B20434F4D5041544942494C495459204944454F47524150482D4639304220),
  (0xF90C, 0x434A4B20434F4D5041544942494C495459204944454F47524150482D4639304320),
  (0xF90D, 0x434A4B20434F4D5041544942494C495459204944454F47524150482D4639304420),
  (0xF90E, 0x434A4B20434F4D5041544942494C495459204944454F47524150482D4639304520),
  (0xF90F, 0x434A4B20434F4D5041544942494C495459204944454F47524150482D4639304620),
  (0xF910, 0x434A4B20434F4D5041544942494C495459204944454F47524150482D4639313020),
  (0xF911, 0x434A4B20434F4D5041544942494C495459204944454F47524150482D4639313120),
  (0xF912, 0x434A4B20434F4D5041544942494C495459204944454F47524150482D4639313220),
  (0xF913, 0x434A4B20434F4D5041544942494C495459204944454F47524150482D4639313320)]
def names_233 : List (Nat × Nat) := [
  (0xF914, 0x434A4B20434F4D5041544942494C495459204944454F47524150482D4639313420),
  (0xF915, 0x434A4B20434F4D5041544942494C495459204944454F47524150482D4639313520),
  (0xF916, 0x434A4B20434F4D5041544942494C495459204944454F47524150482D4639313620),
  (0xF917, 0x434A4B20434F4D5041544942494C495459204944454F47524150482D4639313720),
  (0xF918, 0x434A4B20434F4D5041544942494C495459204944454F47524150482D4639313820),
  (0xF919, 0x434A4B20434F4D5041544942494C495459204944454F47524150482D4639313920),
  (0xF91A, 0x434A4B20434F4D5041544942494C495459204944454F47524150482D4639314120),
  (0xF91B, 0x434A4B20434F4D5041544942494C495459204944454F47524150482D4639314220),
  (0xF91C, 0x434A4B20434F4D5041544942494C495459204944454F47524150482D4639314320),
  (0xF91D, 0x434A4B20434F4D5041544942494C495459204944454F47524150482D4639314420),
  (0xF91E, 0x434A4B20434F4D5041544942494C495459204944454F47524150482D4639314520),
  (0xF91F, 0x434A4B20434F4D5041544942494C495459204944454F47524150482D4639314620),
  (0xF920, 0x434A4B20434F4D5041544942494C495459204944454F47524150482D4639323020),
  (0xF921, 0x434A4B20434F4D5041544942494C495459204944454F47524150482D4639323120),
  (0xF922, 0x434A4B20434F4D5041544942494C495459204944454F47524150482D4639323220),
  (0xF923, 0x434A4B20434F4D5041544942494C495459204944454F47524150482D4639323320),
  (0xF924, 0x434A4B20434F4D5041544942494C495459204944454F47524150482D4639323420),
  (0xF925, 0x434A4B20434F4D5041544942494C495459204944454F47524150482D4639323520),
  (0xF926, 0x434A4B20434F4D5041544942494C495459204944454F47524150482D4639323620),
  (0xF927, 0x434A4B20434F4D5041544942494C495459204944454F47524150482D4639323720),
  (0xF928, 0x434A4B20434F4D5041544942494C495459204944454F47524150482D4639323820),
  (0xF929, 0x434A4B20434F4D5041544942494C495459204944454F47524150482D4639323920),
  (0xF92A, 0x434A4B20434F4D5041544942494C495459204944454F47524150482D4639324120),
  (0xF92B, 0x434A4B20434F4D5041544942494C495459204944454F47524150482D4639324220),
  (0xF92C, 0x434A4B20434F4D5041544942494C495459204944454F47524150482D4639324320),
  (0xF92D, 0x434A4B20434F4D5041544942494C495459204944454F47524150482D4639324420),
  (0xF92E, 0x434A4B20434F4D5041544942494C495459204944454F47524150482D4639324520),
  (0xF92F, 0x434A4B20434F4D5041544942494C495459204944454F47524150482D4639324620),
  (0xF930, 0x434A4B20434F4D5041544942494C495459204944454F47524150482D4639333020),
  (0xF931, 0x434A4B20434F4D5041544942494C495459204944454F47524150482D4639333120),
  (0xF932, 0x434A4B20434F4D5041544942494C495459204944454F47524150482D4639333220),
  (0xF933, 0x434A4B20434F4D5041544942494C495459204944454F47524150482D4639333320),
  (0xF934, 0x434A4B20434F4D5041544942494C495459204944454F47524150482D4639333420),
  (0xF935, 0x434A4B20434F4D5041544942494C495459204944454F47524150482D4639333520),
  (0xF936, 0x434A4B20434F4D5041544942494C495459204944454F47524150482D4639333620),
  (0xF937, 0x434A4B20434F4D5041544942494C495459204944454F47524150482D4639333720),
  (0xF938, 0x434A4B20434F4D5041544942494C495459204944454F47524150482D4639333820),
  (0xF939, 0x434A4B20434F4D5041544942494C495459204944454F47524150482D4639333920),
  (0xF93A, 0x434A4B20434F4D5041544942494C495459204944454F47524150482D4639334120),
  (0xF93B, 0x434A4B20434F4D5041544942494C495459204944454F47524150482D4639334220),
  (0xF93C, 0x434A4B20434F4D5041544942494C495459204944454F47524150482D4639334320),
  (0xF93D, 0x434A4B20434F4D5041544942494C495459204944454F47524150482D4639334420),
  (0xF93E, 0x434A4B20434F4D5041544942494C495459204944454F47524150482D4639334520),
  (0xF93F, 0x434A4B20434F4D5041544942494C495459204944454F47524150482D4639334620),
  (0xF940, 0x434A4B20434F4D5041544942494C495459204944454F47524150482D4639343020),
  (0xF941, 0x434A4B20434F4D5041544942494C495459204944454F47524150482D4639343120),
  (0xF942, 0x434A4B20434F4D5041544942494C495459204944454F47524150482D4639343220),
  (0xF943, 0x434A4B20434F4D5041544942494C495459204944454F47524150482D4639343320),
  (0xF944, 0x434A4B20434F4D5041544942494C495459204944454F47524150482D4639343420),
  (0xF945, 0x434A4B20434F4D5041544942494C495459204944454F47524150482D4639343520),
  (0xF946, 0x434A4B20434F4D5041544942494C495459204944454F47524150482D4639343620),
  (0xF947, 0x434A4B20434F4D5041544942494C495459204944454F47524150482D4639343720),
  (0xF948, 0x434A4B20434F4D5041544942494C495459204944454F47524150482D4639343820),
  (0xF949, 0x434A4B20434F4D5041544942494C495459204944454F47524150482D4639343920),
  (0xF94A, 0x434A4B20434F4D5041544942494C495459204944454F47524150482D4639344120),
  (0xF94B, 0x434A4B20434F4D5041544942494C495459204944454F47524150482D4639344220),
  (0xF94C, 0x434A4B20434F4D5041544942494C495459204944454F47524150482D4639344320),
  (0xF94D, 0x434A4B20434F4D5041544942494C495459204944454F47524150482D4639344420),
  (0xF94E, 0x434A4B20434F4D5041544942494C495459204944454F47524150482D4639344520),
  (0xF94F, 0x434A4B20434F4D5041544942494C495459204944454F47524150482D4639344620),
  (0xF950, 0x434A4B20434F4D5041544942494C495459204944454F47524150482D4639353020),
  (0xF951, 0x434A4B20434F4D5041544942494C495459204944454F47524150482D4639353120),
  (0xF952, 0x434A4B20434F4D5041544942494C495459204944454F47524150482D4639353220),
  (0xF953, 0x434A4B20434F4D5041544942494C495459204944454F47524150482D4639353320)]
def names_234 : List (Nat × Nat) := [
  (0xF954, 0x434A4B20434F4D5041544942494C495459204944454F47524150482D4639353420),
  (0xF955, 0x434A4B20434F4D5041544942494C495459204944454F47524150482D4639353520),
  (0xF956, 0x434A4B20434F4D5041544942494C495459204944454F47524150482D4639353620),
  (0xF957, 0x434A4B20434F4D5041544942494C495459204944454F47524150482D4639353720),
  (0xF958, 0x434A4B20434F4D5041544942494C495459204944454F47524150482D4639353820),
  (0xF959, 0x434A4B20434F4D5041544942494C495459204944454F47524150482D4639353920),
  (0xF95A, 0x434A4B20434F4D5041544942494C495459204944454F47524150482D4639354120),
  (0xF95B, 0x434A4B20434F4D5041544942494C495459204944454F47524150482D4639354220),
  (0xF95C, 0x434A4B20434F4D5041544942494C495459204944454F47524150482D4639354320),
  (0xF95D, 0x434A4B20434F4D5041544942494C495459204944454F47524150482D4639354420),
  (0xF95E, 0x434A4B20434F4D5041544942494C495459204944454F47524150482D4639354520),
  (0xF95F, 0x434A4B20434F4D5041544942494C495459204944454F47524150482D4639354620),
  (0xF960, 0x434A4B20434F4D5041544942494C495459204944454F47524150482D4639363020),
  (0xF961, 0x434A4B20434F4D5041544942494C495459204944454F47524150482D4639363120),
  (0xF962, 0x434A4B20434F4D5041544942494C495459204944454F47524150482D4639363220),
  (0xF963, 0x434A4B20434F4D5041544942494C495459204944454F47524150482D4639363320),
  (0xF964, 0x434A4B20434F4D5041544942494C495459204944454F47524150482D4639363420),
  (0xF965, 0x434A4B20434F4D5041544942494C495459204944454F47524150482D4639363520),
  (0xF966, 0x434A4B20434F4D5041544942494C495459204944454F47524150482D4639363620),
  (0xF967, 0x434A4B20434F4D5041544942494C495459204944454F47524150482D4639363720),
  (0xF968, 0x434A4B20434F4D5041544942494C495459204944454F47524150482D4639363820),
  (0xF969, 0x434A4B20434F4D5041544942494C495459204944454F47524150482D4639363920),
  (0xF96A, 0x434A4B20434F4D5041544942494C495459204944454F47524150482D4639364120),
  (0xF96B, 0x434A4B20434F4D5041544942494C495459204944454F47524150482D4639364220),
  (0xF96C, 0x434A4B20434F4D5041544942494C495459204944454F47524150482D4639364320),
  (0xF96D, 0x434A4B20434F4D5041544942494C495459204944454F47524150482D4639364420),
  (0xF96E, 0x434A4B20434F4D5041544942494C495459204944454F47524150482D4639364520),
  (0xF96F, 0x434A4B20434F4D5041544942494C495459204944454F47524150482D4639364620),
  (0xF970, 0x434A4B20434F4D5041544942494C495459204944454F47524150482D4639373020),
  (0xF971, 0x434A4B20434F4D5041544942494C495459204944454F47524150482D4639373120),
  (0xF972, 0x434A4B20434F4D5041544942494C495459204944454F47524150482D4639373220),
  (0xF973, 0x434A4B20434F4D5041544942494C495459204944454F47524150482D4639373320),
  (0xF974, 0x434A4B20434F4D5041544942494C495459204944454F47524150482D4639373420),
  (0xF975, 0x434A4B20434F4D5041544942494C495459204944454F47524150482D4639373520),
  (0xF976, 0x434A4B20434F4D5041544942494C495459204944454F47524150482D4639373620),
  (0xF977, 0x434A4B20434F4D5041544942494C495459204944454F47524150482D4639373720),
  (0xF978, 0x434A4B20434F4D5041544942494C495459204944454F47524150482D4639373820),
  (0xF979, 0x434A4B20434F4D5041544942494C495459204944454F47524150482D4639373920),
  (0xF97A, 0x434A4B20434F4D5041544942494C495459204944454F47524150482D4639374120),
  (0xF97B, 0x434A4B20434F4D5041544942494C495459204944454F47524150482D4639374220),
  (0xF97C, 0x434A4B20434F4D5041544942494C495459204944454F47524150482D4639374320),
  (0xF97D, 0x434A4B20434F4D5041544942494C495459204944454F47524150482D4639374420),
  (0xF97E, 0x434A4B20434F4D5041544942494C495459204944454F47524150482D4639374520),
  (0xF97F, 0x434A4B20434F4D5041544942494C495459204944454F47524150482D4639374620),
  (0xF980, 0x434A4B20434F4D5041544942494C495459204944454F47524150482D4639383020),
  (0xF981, 0x434A4B20434F4D5041544942494C495459204944454F47524150482D4639383120),
  (0xF982, 0x434A4B20434F4D5041544942494C495459204944454F47524150482D4639383220),
  (0xF983, 0x434A4B20434F4D5041544942494C495459204944454F47524150482D4639383320),
  (0xF984, 0x434A4B20434F4D5041544942494C495459204944454F47524150482D4639383420),
  (0xF985, 0x434A4B20434F4D5041544942494C495459204944454F47524150482D4639383520),
  (0xF986, 0x434A4B20434F4D5041544942494C495459204944454F47524150482D4639383620),
  (0xF987, 0x434A4B20434F4D5041544942494C495459204944454F47524150482D4639383720),
  (0xF988, 0x434A4B20434F4D5041544942494C495459204944454F47524150482D4639383820),
  (0xF989, 0x434A4B20434F4D5041544942494C495459204944454F47524150482D4639383920),
  (0xF98A, 0x434A4B20434F4D5041544942494C495459204944454F47524150482D4639384120),
  (0xF98B, 0x434A4B20434F4D5041544942494C495459204944454F47524150482D4639384220),
  (0xF98C, 0x434A4B20434F4D5041544942494C495459204944454F47524150482D4639384320),
  (0xF98D, 0x434A4B20434F4D5041544942494C495459204944454F47524150482D4639384420),
  (0xF98E, 0x434A4B20434F4D5041544942494C495459204944454F47524150482D4639384520),
  (0xF98F, 0x434A4B20434F4D5041544942494C495459204944454F47524150482D4639384620),
  (0xF990, 0x434A4B20434F4D5041544942494C495459204944454F47524150482D4639393020),
  (0xF991, 0x434A4B20434F4D5041544942494C495459204944454F47524150482D4639393120),
  (0xF992, 0x434A4B20434F4D5041544942494C495459204944454F47524150482D4639393220),
  (0xF993, 0x434A4B20434F4D5041544942494C495459204944454F47524150482D4639393320)]
def names_235 : List (Nat × Nat) := [
  (0xF994, 0x434A4B20434F4D5041544942494C495459204944454F47524150482D4639393420),
  (0xF995, 0x434A4B20434F4D5041544942494C495459204944454F47524150482D4639393520),
  (0xF996, 0x434A4B20434F4D5041544942494C495459204944454F47524150482D4639393620),
  (0xF997, 0x434A4B20434F4D5041544942494C495459204944454F47524150482D4639393720),
  (0xF998, 0x434A4B20434F4D5041544942494C495459204944454F47524150482D4639393820),
  (0xF999, 0x434A4B20434F4D5041544942494C495459204944454F47524150482D4639393920),
  (0xF99A, 0x434A4B20434F4D5041544942494C495459204944454F47524150482D4639394120),
  (0xF99B, 0x434A4B20434F4D5041544942494C495459204944454F47524150482D4639394220),
  (0xF99C, 0x434A4B20434F4D5041544942494C495459204944454F47524150482D4639394320),
  (0xF99D, 0x434A4B20434F4D5041544942494C495459204944454F47524150482D4639394420),
  (0xF99E, 0x434A4B20434F4D5041544942494C495459204944454F47524150482D4639394520),
  (0xF99F, 0x434A4B20434F4D5041544942494C495459204944454F47524150482D4639394620),
  (0xF9A0, 0x434A4B20434F4D5041544942494C495459204944454F47524150482D4639413020),
  (0xF9A1, 0x434A4B20434F4D5041544942494C495459204944454F47524150482D4639413120),
  (0xF9A2, 0x434A4B20434F4D5041544942494C495459204944454F47524150482D4639413220),
  (0xF9A3, 0x434A4B20434F4D5041544942494C495459204944454F47524150482D4639413320),
  (0xF9A4, 0x434A4B20434F4D5041544942494C495459204944454F47524150482D4639413420),
  (0xF9A5, 0x434A4B20434F4D5041544942494C495459204944454F47524150482D4639413520),
  (0xF9A6, 0x434A4B20434F4D5041544942494C495459204944454F47524150482D4639413620),
  (0xF9A7, 0x434A4B20434F4D5041544942494C495459204944454F47524150482D4639413720),
  (0xF9A8, 0x434A4B20434F4D5041544942494C495459204944454F47524150482D4639413820),
  (0xF9A9, 0x434A4B20434F4D5041544942494C495459204944454F47524150482D4639413920),
  (0xF9AA, 0x434A4B20434F4D5041544942494C495459204944454F47524150482D4639414120),
  (0xF9AB, 0x434A4B20434F4D5041544942494C495459204944454F47524150482D4639414220),
  (0xF9AC, 0x434A4B20434F4D5041544942494C495459204944454F47524150482D4639414320),
  (0xF9AD, 0x434A4B20434F4D5041544942494C495459204944454F47524150482D4639414420),
  (0xF9AE, 0x434A4B20434F4D5041544942494C495459204944454F47524150482D4639414520),
  (0xF9AF, 0x434A4B20434F4D5041544942494C495459204944454F47524150482D4639414620),
  (0xF9B0, 0x434A4B20434F4D5041544942494C495459204944454F47524150482D4639423020),
  (0xF9B1, 0x434A4B20434F4D5041544942494C495459204944454F47524150482D4639423120),
  (0xF9B2, 0x434A4B20434F4D5041544942494C495459204944454F47524150482D4639423220),
  (0xF9B3, 0x434A4B20434F4D5041544942494C495459204944454F47524150482D4639423320),
  (0xF9B4, 0x434A4B20434F4D5041544942494C495459204944454F47524150482D4639423420),
  (0xF9B5, 0x434A4B20434F4D5041544942494C495459204944454F47524150482D4639423520),
  (0xF9B6, 0x434A4B20434F4D5041544942494C495459204944454F47524150482D4639423620),
  (0xF9B7, 0x434A4B20434F4D5041544942494C495459204944454F47524150482D4639423720),
  (0xF9B8, 0x434A4B20434F4D5041544942494C495459204944454F47524150482D4639423820),
  (0xF9B9, 0x434A4B20434F4D5041544942494C495459204944454F47524150482D4639423920),
  (0xF9BA, 0x434A4B20434F4D5041544942494C495459204944454F47524150482D4639424120),
  (0xF9BB, 0x434A4B20434F4D5041544942494C495459204944454F47524150482D4639424220),
  (0xF9BC, 0x434A4B20434F4D5041544942494C495459204944454F47524150482D4639424320),
  (0xF9BD, 0x434A4B20434F4D5041544942494C495459204944454F47524150482D4639424420),
  (0xF9BE, 0x434A4B20434F4D5041544942494C495459204944454F47524150482D4639424520),
  (0xF9BF, 0x434A4B20434F4D5041544942494C495459204944454F47524150482D4639424620),
  (0xF9C0, 0x434A4B20434F4D5041544942494C495459204944454F47524150482D4639433020),
  (0xF9C1, 0x434A4B20434F4D5041544942494C495459204944454F47524150482D4639433120),
  (0xF9C2, 0x434A4B20434F4D5041544942494C495459204944454F47524150482D4639433220),
  (0xF9C3, 0x434A4B20434F4D5041544942494C495459204944454F47524150482D4639433320),
  (0xF9C4, 0x434A4B20434F4D5041544942494C495459204944454F47524150482D4639433420),
  (0xF9C5, 0x434A4B20434F4D5041544942494C495459204944454F47524150482D4639433520),
  (0xF9C6, 0x434A4B20434F4D5041544942494C495459204944454F47524150482D4639433620),
  (0xF9C7, 0x434A4B20434F4D5041544942494C495459204944454F47524150482D4639433720),
  (0xF9C8, 0x434A4B20434F4D5041544942494C495459204944454F47524150482D4639433820),
  (0xF9C9, 0x434A4B20434F4D5041544942494C495459204944454F47524150482D4639433920),
  (0xF9CA, 0x434A4B20434F4D5041544942494C495459204944454F47524150482D4639434120),
  (0xF9CB, 0x434A4B20434F4D5041544942494C495459204944454F47524150482D4639434220),
  (0xF9CC, 0x434A4B20434F4D5041544942494C495459204944454F47524150482D4639434320),
  (0xF9CD, 0x434A4B20434F4D5041544942494C495459204944454F47524150482D4639434420),
  (0xF9CE, 0x434A4B20434F4D5041544942494C495459204944454F47524150482D4639434520),
  (0xF9CF, 0x434A4B20434F4D5041544942494C495459204944454F47524150482D4639434620),
  (0xF9D0, 0x434A4B20434F4D5041544942494C495459204944454F47524150482D4639443020),
  (0xF9D1, 0x434A4B20434F4D5041544942494C495459204944454F47524150482D4639443120),
  (0xF9D2, 0x434A4B20434F4D5041544942494C495459204944454F47524150482D4639443220),
  (0xF9D3, 0x434A4B20434F4D5041544942494C495459204944454F47524150482D4639443320)]
def names_236 : List (Nat × Nat) := [
  (0xF9D4, 0x434A4B20434F4D5041544942494C495459204944454F47524150482D4639443420),
  (0xF9D5, 0x434A4B20434F4D5041544942494C495459204944454F47524150482D4639443520),
  (0xF9D6, 0x434A4B20434F4D5041544942494C495459204944454F47524150482D4639443620),
  (0xF9D7, 0x434A4B20434F4D5041544942494C495459204944454F47524150482D4639443720),
  (0xF9D8, 0x434A4B20434F4D5041544942494C495459204944454F47524150482D4639443820),
  (0xF9D9, 0x434A4B20434F4D5041544942494C495459204944454F47524150482D4639443920),
  (0xF9DA, 0x434A4B20434F4D5041544942494C495459204944454F47524150482D4639444120),
  (0xF9DB, 0x434A4B20434F4D5041544942494C495459204944454F47524150482D4639444220),
  (0xF9DC, 0x434A4B20434F4D5041544942494C495459204944454F47524150482D4639444320),
  (0xF9DD, 0x434A4B20434F4D5041544942494C495459204944454F47524150482D4639444420),
  (0xF9DE, 0x434A4B20434F4D5041544942494C495459204944454F47524150482D4639444520),
  (0xF9DF, 0x434A4B20434F4D5041544942494C495459204944454F47524150482D4639444620),
  (0xF9E0, 0x434A4B20434F4D5041544942494C495459204944454F47524150482D4639453020),
  (0xF9E1, 0x434A4B20434F4D5041544942494C495459204944454F47524150482D4639453120),
  (0xF9E2, 0x434A4B20434F4D5041544942494C495459204944454F47524150482D4639453220),
  (0xF9E3, 0x434A4B20434F4D5041544942494C495459204944454F47524150482D4639453320),
  (0xF9E4, 0x434A4B20434F4D5041544942494C495459204944454F47524150482D4639453420),
  (0xF9E5, 0x434A4B20434F4D5041544942494C495459204944454F47524150482D4639453520),
  (0xF9E6, 0x434A4B20434F4D5041544942494C495459204944454F47524150482D4639453620),
  (0xF9E7, 0x434A4B20434F4D5041544942494C495459204944454F47524150482D4639453720),
  (0xF9E8, 0x434A4B20434F4D5041544942494C495459204944454F47524150482D4639453820),
  (0xF9E9, 0x434A4B20434F4D5041544942494C495459204944454F47524150482D4639453920),
  (0xF9EA, 0x434A4B20434F4D5041544942494C495459204944454F47524150482D4639454120),
  (0xF9EB, 0x434A4B20434F4D5041544942494C495459204944454F47524150482D4639454220),
  (0xF9EC, 0x434A4B20434F4D5041544942494C495459204944454F47524150482D4639454320),
  (0xF9ED, 0x434A4B20434F4D5041544942494C495459204944454F47524150482D4639454420),
  (0xF9EE, 0x434A4B20434F4D5041544942494C495459204944454F47524150482D4639454520),
  (0xF9EF, 0x434A4B20434F4D5041544942494C495459204944454F47524150482D4639454620),
  (0xF9F0, 0x434A4B20434F4D5041544942494C495459204944454F47524150482D4639463020),
  (0xF9F1, 0x434A4B20434F4D5041544942494C495459204944454F47524150482D4639463120),
  (0xF9F2, 0x434A4B20434F4D5041544942494C495459204944454F47524150482D4639463220),
  (0xF9F3, 0x434A4B20434F4D5041544942494C495459204944454F47524150482D4639463320),
  (0xF9F4, 0x434A4B20434F4D5041544942494C495459204944454F47524150482D4639463420),
  (0xF9F5, 0x434A4B20434F4D5041544942494C495459204944454F47524150482D4639463520),
  (0xF9F6, 0x434A4B20434F4D5041544942494C495459204944454F47524150482D4639463620),
  (0xF9F7, 0x434A4B20434F4D5041544942494C495459204944454F47524150482D4639463720),
  (0xF9F8, 0x434A4B20434F4D5041544942494C495459204944454F47524150482D4639463820),
  (0xF9F9, 0x434A4B20434F4D5041544942494C495459204944454F47524150482D4639463920),
  (0xF9FA, 0x434A4B20434F4D5041544942494C495459204944454F47524150482D4639464120),
  (0xF9FB, 0x434A4B20434F4D5041544942494C495459204944454F47524150482D4639464220),
  (0xF9FC, 0x434A4B20434F4D5041544942494C495459204944454F47524150482D4639464320),
  (0xF9FD, 0x434A4B20434F4D5041544942494C495459204944454F47524150482D4639464420),
  (0xF9FE, 0x434A4B20434F4D5041544942494C495459204944454F47524150482D4639464520),
  (0xF9FF, 0x434A4B20434F4D5041544942494C495459204944454F47524150482D4639464620),
  (0xFA00, 0x434A4B20434F4D5041544942494C495459204944454F47524150482D4641303020),
  (0xFA01, 0x434A4B20434F4D5041544942494C495459204944454F47524150482D4641303120),
  (0xFA02, 0x434A4B20434F4D5041544942494C495459204944454F47524150482D4641303220),
  (0xFA03, 0x434A4B20434F4D5041544942494C495459204944454F47524150482D4641303320),
  (0xFA04, 0x434A4B20434F4D5041544942494C495459204944454F47524150482D4641303420),
  (0xFA05, 0x434A4B20434F4D5041544942494C495459204944454F47524150482D4641303520),
  (0xFA06, 0x434A4B20434F4D5041544942494C495459204944454F47524150482D4641303620),
  (0xFA07, 0x434A4B20434F4D5041544942494C495459204944454F47524150482D4641303720),
  (0xFA08, 0x434A4B20434F4D5041544942494C495459204944454F47524150482D4641303820),
  (0xFA09, 0x434A4B20434F4D5041544942494C495459204944454F47524150482D4641303920),
  (0xFA0A, 0x434A4B20434F4D5041544942494C495459204944454F47524150482D4641304120),
  (0xFA0B, 0x434A4B20434F4D5041544942494C495459204944454F47524150482D4641304220),
  (0xFA0C, 0x434A4B20434F4D5041544942494C495459204944454F47524150482D4641304320),
  (0xFA0D, 0x434A4B20434F4D5041544942494C495459204944454F47524150482D4641304420),
  (0xFA0E, 0x434A4B20434F4D5041544942494C495459204944454F47524150482D4641304520),
  (0xFA0F, 0x434A4B20434F4D5041544942494C495459204944454F47524150482D4641304620),
  (0xFA10, 0x434A4B20434F4D5041544942494C495459204944454F47524150482D4641313020),
  (0xFA11, 0x434A4B20434F4D5041544942494C495459204944454F47524150482D4641313120),
  (0xFA12, 0x434A4B20434F4D5041544942494C495459204944454F47524150482D4641313220),
  (0xFA13, 0x434A4B20434F4D5041544942494C495459204944454F47524150482D4641313320)]
def names_237 : List (Nat × Nat) := [
  (0xFA14, 0x434A4B20434F4D5041544942494C495459204944454F47524150482D4641313420),
  (0xFA15, 0x434A4B20434F4D5041544942494C495459204944454F47524150482D4641313520),
  (0xFA16, 0x434A4B20434F4D5041544942494C495459204944454F47524150482D4641313620),
  (0xFA17, 0x434A4B20434F4D5041544942494C495459204944454F47524150482D4641313720),
  (0xFA18, 0x434A4B20434F4D5041544942494C495459204944454F47524150482D4641313820),
  (0xFA19, 0x434A4B20434F4D5041544942494C495459204944454F47524150482D4641313920),
  (0xFA1A, 0x434A4B20434F4D5041544942494C495459204944454F47524150482D4641314120),
  (0xFA1B, 0x434A4B20434F4D5041544942494C495459204944454F47524150482D4641314220),
  (0xFA1C, 0x434A4B20434F4D5041544942494C495459204944454F47524150482D4641314320),
  (0xFA1D, 0x434A4B20434F4D5041544942494C495459204944454F47524150482D4641314420),
  (0xFA1E, 0x434A4B20434F4D5041544942494C495459204944454F47524150482D4641314520),
  (0xFA1F, 0x434A4B20434F4D5041544942494C495459204944454F47524150482D4641314620),
  (0xFA20, 0x434A4B20434F4D5041544942494C495459204944454F47524150482D4641323020),
  (0xFA21, 0x434A4B20434F4D5041544942494C495459204944454F47524150482D4641323120),
  (0xFA22, 0x434A4B20434F4D5041544942494C495459204944454F47524150482D4641323220),
  (0xFA23, 0x434A4B20434F4D5041544942494C495459204944454F47524150482D4641323320),
  (0xFA24, 0x434A4B20434F4D5041544942494C495459204944454F47524150482D4641323420),
  (0xFA25, 0x434A4B20434F4D5041544942494C495459204944454F47524150482D4641323520),
  (0xFA26, 0x434A4B20434F4D5041544942494C495459204944454F47524150482D4641323620),
  (0xFA27, 0x434A4B20434F4D5041544942494C495459204944454F47524150482D4641323720),
  (0xFA28, 0x434A4B20434F4D5041544942494C495459204944454F47524150482D4641323820),
  (0xFA29, 0x434A4B20434F4D5041544942494C495459204944454F47524150482D4641323920),
  (0xFA2A, 0x434A4B20434F4D5041544942494C495459204944454F47524150482D4641324120),
  (0xFA2B, 0x434A4B20434F4D5041544942494C495459204944454F47524150482D4641324220),
  (0xFA2C, 0x434A4B20434F4D5041544942494C495459204944454F47524150482D4641324320),
  (0xFA2D, 0x434A4B20434F4D5041544942494C495459204944454F47524150482D4641324420),
  (0xFA2E, 0x434A4B20434F4D5041544942494C495459204944454F47524150482D4641324520),
  (0xFA2F, 0x434A4B20434F4D5041544942494C495459204944454F47524150482D4641324620),
  (0xFA30, 0x434A4B20434F4D5041544942494C495459204944454F47524150482D4641333020),
  (0xFA31, 0x434A4B20434F4D5041544942494C495459204944454F47524150482D4641333120),
  (0xFA32, 0x434A4B20434F4D5041544942494C495459204944454F47524150482D4641333220),
  (0xFA33, 0x434A4B20434F4D5041544942494C495459204944454F47524150482D4641333320),
  (0xFA34, 0x434A4B20434F4D5041544942494C495459204944454F47524150482D4641333420),
  (0xFA35, 0x434A4B20434F4D5041544942494C495459204944454F47524150482D4641333520),
  (0xFA36, 0x434A4B20434F4D5041544942494C495459204944454F47524150482D4641333620),
  (0xFA37, 0x434A4B20434F4D5041544942494C495459204944454F47524150482D4641333720),
  (0xFA38, 0x434A4B20434F4D5041544942494C495459204944454F47524150482D4641333820),
  (0xFA39, 0x434A4B20434F4D5041544942494C495459204944454F47524150482D4641333920),
  (0xFA3A, 0x434A4B20434F4D5041544942494C495459204944454F47524150482D4641334120),
  (0xFA3B, 0x434A4B20434F4D5041544942494C495459204944454F47524150482D4641334220),
  (0xFA3C, 0x434A4B20434F4D5041544942494C495459204944454F47524150482D4641334320),
  (0xFA3D, 0x434A4B20434F4D5041544942494C495459204944454F47524150482D4641334420),
  (0xFA3E, 0x434A4B20434F4D5041544942494C495459204944454F47524150482D4641334520),
  (0xFA3F, 0x434A4B20434F4D5041544942494C495459204944454F47524150482D4641334620),
  (0xFA40, 0x434A4B20434F4D5041544942494C495459204944454F47524150482D4641343020),
  (0xFA41, 0x434A4B20434F4D5041544942494C495459204944454F47524150482D4641343120),
  (0xFA42, 0x434A4B20434F4D5041544942494C495459204944454F47524150482D4641343220),
  (0xFA43, 0x434A4B20434F4D5041544942494C495459204944454F47524150482D4641343320),
  (0xFA44, 0x434A4B20434F4D5041544942494C495459204944454F47524150482D4641343420),
  (0xFA45, 0x434A4B20434F4D5041544942494C495459204944454F47524150482D4641343520),
  (0xFA46, 0x434A4B20434F4D5041544942494C495459204944454F47524150482D4641343620),
  (0xFA47, 0x434A4B20434F4D5041544942494C495459204944454F47524150482D4641343720),
  (0xFA48, 0x434A4B20434F4D5041544942494C495459204944454F47524150482D4641343820),
  (0xFA49, 0x434A4B20434F4D5041544942494C495459204944454F47524150482D4641343920),
  (0xFA4A, 0x434A4B20434F4D5041544942494C495459204944454F47524150482D4641344120),
  (0xFA4B, 0x434A4B20434F4D5041544942494C495459204944454F47524150482D4641344220),
  (0xFA4C, 0x434A4B20434F4D5041544942494C495459204944454F47524150482D4641344320),
  (0xFA4D, 0x434A4B20434F4D5041544942494C495459204944454F47524150482D4641344420),
  (0xFA4E, 0x434A4B20434F4D5041544942494C495459204944454F47524150482D4641344520),
  (0xFA4F, 0x434A4B20434F4D5041544942494C495459204944454F47524150482D4641344620),
  (0xFA50, 0x434A4B20434F4D5041544942494C495459204944454F47524150482D4641353020),
  (0xFA51, 0x434A4B20434F4D5041544942494C495459204944454F47524150482D4641353120),
  (0xFA52, 0x434A4B20434F4D5041544942494C495459204944454F47524150482D4641353220),
  (0xFA53, 0x434A4B20434F4D5041544942494C495459204944454F47524150482D4641353320)]
def names_238 : List (Nat × Nat) := [
  (0xFA54, 0x434A4B20434F4D5041544942494C495459204944454F47524150482D4641353420),
  (0xFA55, 0x434A4B20434F4D5041544942494C495459204944454F47524150482D4641353520),
  (0xFA56, 0x434A4B20434F4D5041544942494C495459204944454F47524150482D4641353620),
  (0xFA57, 0x434A4B20434F4D5041544942494C495459204944454F47524150482D4641353720),
  (0xFA58, 0x434A4B20434F4D5041544942494C495459204944454F47524150482D4641353820),
  (0xFA59, 0x434A4B20434F4D5041544942494C495459204944454F47524150482D4641353920),
  (0xFA5A, 0x434A4B20434F4D5041544942494C495459204944454F47524150482D4641354120),
  (0xFA5B, 0x434A4B20434F4D5041544942494C495459204944454F47524150482D4641354220),
  (0xFA5C, 0x434A4B20434F4D5041544942494C495459204944454F47524150482D4641354320),
  (0xFA5D, 0x434A4B20434F4D5041544942494C495459204944454F47524150482D4641354420),
  (0xFA5E, 0x434A4B20434F4D5041544942494C495459204944454F47524150482D4641354520),
  (0xFA5F, 0x434A4B20434F4D5041544942494C495459204944454F47524150482D4641354620),
  (0xFA60, 0x434A4B20434F4D5041544942494C495459204944454F47524150482D4641363020),
  (0xFA61, 0x434A4B20434F4D5041544942494C495459204944454F47524150482D4641363120),
  (0xFA62, 0x434A4B20434F4D5041544942494C495459204944454F47524150482D4641363220),
  (0xFA63, 0x434A4B20434F4D5041544942494C495459204944454F47524150482D4641363320),
  (0xFA64, 0x434A4B20434F4D5041544942494C495459204944454F47524150482D4641363420),
  (0xFA65, 0x434A4B20434F4D5041544942494C495459204944454F47524150482D4641363520),
  (0xFA66, 0x434A4B20434F4D5041544942494C495459204944454F47524150482D4641363620),
  (0xFA67, 0x434A4B20434F4D5041544942494C495459204944454F47524150482D4641363720),
  (0xFA68, 0x434A4B20434F4D5041544942494C495459204944454F47524150482D4641363820),
  (0xFA69, 0x434A4B20434F4D5041544942494C495459204944454F47524150482D4641363920),
  (0xFA6A, 0x434A4B20434F4D5041544942494C495459204944454F47524150482D4641364120),
  (0xFA6B, 0x434A4B20434F4D5041544942494C495459204944454F47524150482D4641364220),
  (0xFA6C, 0x434A4B20434F4D5041544942494C495459204944454F47524150482D4641364320),
  (0xFA6D, 0x434A4B20434F4D5041544942494C495459204944454F47524150482D4641364420),
  (0xFA70, 0x434A4B20434F4D5041544942494C495459204944454F47524150482D4641373020),
  (0xFA71, 0x434A4B20434F4D5041544942494C495459204944454F47524150482D4641373120),
  (0xFA72, 0x434A4B20434F4D5041544942494C495459204944454F47524150482D4641373220),
  (0xFA73, 0x434A4B20434F4D5041544942494C495459204944454F47524150482D4641373320),
  (0xFA74, 0x434A4B20434F4D5041544942494C495459204944454F47524150482D4641373420),
  (0xFA75, 0x434A4B20434F4D5041544942494C495459204944454F47524150482D4641373520),
  (0xFA76, 0x434A4B20434F4D5041544942494C495459204944454F47524150482D4641373620),
  (0xFA77, 0x434A4B20434F4D5041544942494C495459204944454F47524150482D4641373720),
  (0xFA78, 0x434A4B20434F4D5041544942494C495459204944454F47524150482D4641373820),
  (0xFA79, 0x434A4B20434F4D5041544942494C495459204944454F47524150482D4641373920),
  (0xFA7A, 0x434A4B20434F4D5041544942494C495459204944454F47524150482D4641374120),
  (0xFA7B, 0x434A4B20434F4D5041544942494C495459204944454F47524150482D4641374220),
  (0xFA7C, 0x434A4B20434F4D5041544942494C495459204944454F47524150482D4641374320),
  (0xFA7D, 0x434A4B20434F4D5041544942494C495459204944454F47524150482D4641374420),
  (0xFA7E, 0x434A4B20434F4D5041544942494C495459204944454F47524150482D4641374520),
  (0xFA7F, 0x434A4B20434F4D5041544942494C495459204944454F47524150482D4641374620),
  (0xFA80, 0x434A4B20434F4D5041544942494C495459204944454F47524150482D4641383020),
  (0xFA81, 0x434A4B20434F4D5041544942494C495459204944454F47524150482D4641383120),
  (0xFA82, 0x434A4B20434F4D5041544942494C495459204944454F47524150482D4641383220),
  (0xFA83, 0x434A4B20434F4D5041544942494C495459204944454F47524150482D4641383320),
  (0xFA84, 0x434A4B20434F4D5041544942494C495459204944454F47524150482D4641383420),
  (0xFA85, 0x434A4B20434F4D5041544942494C495459204944454F47524150482D4641383520),
  (0xFA86, 0x434A4B20434F4D5041544942494C495459204944454F47524150482D4641383620),
  (0xFA87, 0x434A4B20434F4D5041544942494C495459204944454F47524150482D4641383720),
  (0xFA88, 0x434A4B20434F4D5041544942494C495459204944454F47524150482D4641383820),
  (0xFA89, 0x434A4B20434F4D5041544942494C495459204944454F47524150482D4641383920),
  (0xFA8A, 0x434A4B20434F4D5041544942494C495459204944454F47524150482D4641384120),
  (0xFA8B, 0x434A4B20434F4D5041544942494C495459204944454F47524150482D4641384220),
  (0xFA8C, 0x434A4B20434F4D5041544942494C495459204944454F47524150482D4641384320),
  (0xFA8D, 0x434A4B20434F4D5041544942494C495459204944454F47524150482D4641384420),
  (0xFA8E, 0x434A4B20434F4D5041544942494C495459204944454F47524150482D4641384520),
  (0xFA8F, 0x434A4B20434F4D5041544942494C495459204944454F47524150482D4641384620),
  (0xFA90, 0x434A4B20434F4D5041544942494C495459204944454F47524150482D4641393020),
  (0xFA91, 0x434A4B20434F4D5041544942494C495459204944454F47524150482D4641393120),
  (0xFA92, 0x434A4B20434F4D5041544942494C495459204944454F47524150482D4641393220),
  (0xFA93, 0x434A4B20434F4D5041544942494C495459204944454F47524150482D4641393320),
  (0xFA94, 0x434A4B20434F4D5041544942494C495459204944454F47524150482D4641393420),
  (0xFA95, 0x434A4B20434F4D5041544942494C495459204944454F47524150482D4641393520)]
def names_239 : List (Nat × Nat) := [
  (0xFA96, 0x434A4B20434F4D5041544942494C495459204944454F47524150482D4641393620),
  (0xFA97, 0x434A4B20434F4D5041544942494C495459204944454F47524150482D4641393720),
  (0xFA98, 0x434A4B20434F4D5041544942494C495459204944454F47524150482D4641393820),
  (0xFA99, 0x434A4B20434F4D5041544942494C495459204944454F47524150482D4641393920),
  (0xFA9A, 0x434A4B20434F4D5041544942494C495459204944454F47524150482D4641394120),
  (0xFA9B, 0x434A4B20434F4D5041544942494C495459204944454F47524150482D4641394220),
  (0xFA9C, 0x434A4B20434F4D5041544942494C495459204944454F47524150482D4641394320),
  (0xFA9D, 0x434A4B20434F4D5041544942494C495459204944454F47524150482D4641394420),
  (0xFA9E, 0x434A4B20434F4D5041544942494C495459204944454F47524150482D4641394520),
  (0xFA9F, 0x434A4B20434F4D5041544942494C495459204944454F47524150482D4641394620),
  (0xFAA0, 0x434A4B20434F4D5041544942494C495459204944454F47524150482D4641413020),
  (0xFAA1, 0x434A4B20434F4D5041544942494C495459204944454F47524150482D4641413120),
  (0xFAA2, 0x434A4B20434F4D5041544942494C495459204944454F47524150482D4641413220),
  (0xFAA3, 0x434A4B20434F4D5041544942494C495459204944454F47524150482D4641413320),
  (0xFAA4, 0x434A4B20434F4D5041544942494C495459204944454F47524150482D4641413420),
  (0xFAA5, 0x434A4B20434F4D5041544942494C495459204944454F47524150482D4641413520),
  (0xFAA6, 0x434A4B20434F4D5041544942494C495459204944454F47524150482D4641413620),
  (0xFAA7, 0x434A4B20434F4D5041544942494C495459204944454F47524150482D4641413720),
  (0xFAA8, 0x434A4B20434F4D5041544942494C495459204944454F47524150482D4641413820),
  (0xFAA9, 0x434A4B20434F4D5041544942494C495459204944454F47524150482D4641413920),
  (0xFAAA, 0x434A4B20434F4D5041544942494C495459204944454F47524150482D4641414120),
  (0xFAAB, 0x434A4B20434F4D5041544942494C495459204944454F47524150482D4641414220),
  (0xFAAC, 0x434A4B20434F4D5041544942494C495459204944454F47524150482D4641414320),
  (0xFAAD, 0x434A4B20434F4D5041544942494C495459204944454F47524150482D4641414420),
  (0xFAAE, 0x434A4B20434F4D5041544942494C495459204944454F47524150482D4641414520),
  (0xFAAF, 0x434A4B20434F4D5041544942494C495459204944454F47524150482D4641414620),
  (0xFAB0, 0x434A4B20434F4D5041544942494C495459204944454F47524150482D4641423020),
  (0xFAB1, 0x434A4B20434F4D5041544942494C495459204944454F47524150482D4641423120),
  (0xFAB2, 0x434A4B20434F4D5041544942494C495459204944454F47524150482D4641423220),
  (0xFAB3, 0x434A4B20434F4D5041544942494C495459204944454F47524150482D4641423320),
  (0xFAB4, 0x434A4B20434F4D5041544942494C495459204944454F47524150482D4641423420),
  (0xFAB5, 0x434A4B20434F4D5041544942494C495459204944454F47524150482D4641423520),
  (0xFAB6, 0x434A4B20434F4D5041544942494C495459204944454F47524150482D4641423620),
  (0xFAB7, 0x434A4B20434F4D5041544942494C495459204944454F47524150482D4641423720),
  (0xFAB8, 0x434A4B20434F4D5041544942494C495459204944454F47524150482D4641423820),
  (0xFAB9, 0x434A4B20434F4D5041544942494C495459204944454F47524150482D4641423920),
  (0xFABA, 0x434A4B20434F4D5041544942494C495459204944454F47524150482D4641424120),
  (0xFABB, 0x434A4B20434F4D5041544942494C495459204944454F47524150482D4641424220),
  (0xFABC, 0x434A4B20434F4D5041544942494C495459204944454F47524150482D4641424320),
  (0xFABD, 0x434A4B20434F4D5041544942494C495459204944454F47524150482D4641424420),
  (0xFABE, 0x434A4B20434F4D5041544942494C495459204944454F47524150482D4641424520),
  (0xFABF, 0x434A4B20434F4D5041544942494C495459204944454F47524150482D4641424620),
  (0xFAC0, 0x434A4B20434F4D5041544942494C495459204944454F47524150482D4641433020),
  (0xFAC1, 0x434A4B20434F4D5041544942494C495459204944454F47524150482D4641433120),
  (0xFAC2, 0x434A4B20434F4D5041544942494C495459204944454F47524150482D4641433220),
  (0xFAC3, 0x434A4B20434F4D5041544942494C495459204944454F47524150482D4641433320),
  (0xFAC4, 0x434A4B20434F4D5041544942494C495459204944454F47524150482D4641433420),
  (0xFAC5, 0x434A4B20434F4D5041544942494C495459204944454F47524150482D4641433520),
  (0xFAC6, 0x434A4B20434F4D5041544942494C495459204944454F47524150482D4641433620),
  (0xFAC7, 0x434A4B20434F4D5041544942494C495459204944454F47524150482D4641433720),
  (0xFAC8, 0x434A4B20434F4D5041544942494C495459204944454F47524150482D4641433820),
  (0xFAC9, 0x434A4B20434F4D5041544942494C495459204944454F47524150482D4641433920),
  (0xFACA, 0x434A4B20434F4D5041544942494C495459204944454F47524150482D4641434120),
  (0xFACB, 0x434A4B20434F4D5041544942494C495459204944454F47524150482D4641434220),
  (0xFACC, 0x434A4B20434F4D5041544942494C495459204944454F47524150482D4641434320),
  (0xFACD, 0x434A4B20434F4D5041544942494C495459204944454F47524150482D4641434420),
  (0xFACE, 0x434A4B20434F4D5041544942494C495459204944454F47524150482D4641434520),
  (0xFACF, 0x434A4B20434F4D5041544942494C495459204944454F47524150482D4641434620),
  (0xFAD0, 0x434A4B20434F4D5041544942494C495459204944454F47524150482D4641443020),
  (0xFAD1, 0x434A4B20434F4D5041544942494C495459204944454F47524150482D4641443120),
  (0xFAD2, 0x434A4B20434F4D5041544942494C495459204944454F47524150482D4641443220),
  (0xFAD3, 0x434A4B20434F4D5041544942494C495459204944454F47524150482D4641443320),
  (0xFAD4, 0x434A4B20434F4D5041544942494C495459204944454F47524150482D4641443420),
  (0xFAD5, 0x434A4B20434F4D5041544942494C495459204944454F47524150482D4641443520)]
def names_240 : List (Nat × Nat) := [
  (0xFAD6, 0x434A4B20434F4D5041544942494C495459204944454F47524150482D4641443620),
  (0xFAD7, 0x434A4B20434F4D5041544942494C495459204944454F47524150482D4641443720),
  (0xFAD8, 0x434A4B20434F4D5041544942494C495459204944454F47524150482D4641443820),
  (0xFAD9, 0x434A4B20434F4D5041544942494C495459204944454F47524150482D4641443920),
  (0xFB00, 0x4C4154494E20534D414C4C204C4947415455524520464620),
  (0xFB01, 0x4C4154494E20534D414C4C204C4947415455524520464920),
  (0xFB02, 0x4C4154494E20534D414C4C204C4947415455524520464C20),
  (0xFB03, 0x4C4154494E20534D414C4C204C494741545552452046464920),
  (0xFB04, 0x4C4154494E20534D414C4C204C494741545552452046464C20),
  (0xFB05, 0x4C4154494E20534D414C4C204C49474154555245204C4F4E472053205420),
  (0xFB06, 0x4C4154494E20534D414C4C204C4947415455524520535420),
  (0xFB13, 0x41524D454E49414E20534D414C4C204C49474154555245204D454E204E4F5720),
  (0xFB14, 0x41524D454E49414E20534D414C4C204C49474154555245204D454E2045434820),
  (0xFB15, 0x41524D454E49414E20534D414C4C204C49474154555245204D454E20494E4920),
  (0xFB16, 0x41524D454E49414E20534D414C4C204C4947415455524520564557204E4F5720),
  (0xFB17, 0x41524D454E49414E20534D414C4C204C49474154555245204D454E2058454820),
  (0xFB1D, 0x484542524557204C455454455220594F44205749544820484952495120),
  (0xFB1E, 0x48454252455720504F494E54204A5544454F2D5350414E49534820564152494B4120),
  (0xFB1F, 0x484542524557204C49474154555245205949444449534820594F4420594F4420504154414820),
  (0xFB20, 0x484542524557204C455454455220414C5445524E4154495645204159494E20),
  (0xFB21, 0x484542524557204C4554544552205749444520414C454620),
  (0xFB22, 0x484542524557204C455454455220574944452044414C455420),
  (0xFB23, 0x484542524557204C4554544552205749444520484520),
  (0xFB24, 0x484542524557204C45545445522057494445204B414620),
  (0xFB25, 0x484542524557204C45545445522057494445204C414D454420),
  (0xFB26, 0x484542524557204C455454455220574944452046494E414C204D454D20),
  (0xFB27, 0x484542524557204C45545445522057494445205245534820),
  (0xFB28, 0x484542524557204C455454455220574944452054415620),
  (0xFB29, 0x484542524557204C455454455220414C5445524E415449564520504C5553205349474E20),
  (0xFB2A, 0x484542524557204C4554544552205348494E2057495448205348494E20444F5420),
  (0xFB2B, 0x484542524557204C4554544552205348494E20574954482053494E20444F5420),
  (0xFB2C, 0x484542524557204C4554544552205348494E20574954482044414745534820414E44205348494E20444F5420),
  (0xFB2D, 0x484542524557204C4554544552205348494E20574954482044414745534820414E442053494E20444F5420),
  (0xFB2E, 0x484542524557204C455454455220414C4546205749544820504154414820),
  (0xFB2F, 0x484542524557204C455454455220414C454620574954482051414D41545320),
  (0xFB30, 0x484542524557204C455454455220414C45462057495448204D4150495120),
  (0xFB31, 0x484542524557204C45545445522042455420574954482044414745534820),
  (0xFB32, 0x484542524557204C45545445522047494D454C20574954482044414745534820),
  (0xFB33, 0x484542524557204C45545445522044414C455420574954482044414745534820),
  (0xFB34, 0x484542524557204C45545445522048452057495448204D4150495120),
  (0xFB35, 0x484542524557204C45545445522056415620574954482044414745534820),
  (0xFB36, 0x484542524557204C4554544552205A4159494E20574954482044414745534820),
  (0xFB38, 0x484542524557204C45545445522054455420574954482044414745534820),
  (0xFB39, 0x484542524557204C455454455220594F4420574954482044414745534820),
  (0xFB3A, 0x484542524557204C45545445522046494E414C204B414620574954482044414745534820),
  (0xFB3B, 0x484542524557204C4554544552204B414620574954482044414745534820),
  (0xFB3C, 0x484542524557204C4554544552204C414D454420574954482044414745534820),
  (0xFB3E, 0x484542524557204C4554544552204D454D20574954482044414745534820),
  (0xFB40, 0x484542524557204C4554544552204E554E20574954482044414745534820),
  (0xFB41, 0x484542524557204C45545445522053414D454B4820574954482044414745534820),
  (0xFB43, 0x484542524557204C45545445522046494E414C20504520574954482044414745534820),
  (0xFB44, 0x484542524557204C455454455220504520574954482044414745534820),
  (0xFB46, 0x484542524557204C455454455220545341444920574954482044414745534820),
  (0xFB47, 0x484542524557204C455454455220514F4620574954482044414745534820),
  (0xFB48, 0x484542524557204C4554544552205245534820574954482044414745534820),
  (0xFB49, 0x484542524557204C4554544552205348494E20574954482044414745534820),
  (0xFB4A, 0x484542524557204C45545445522054415620574954482044414745534820),
  (0xFB4B, 0x484542524557204C455454455220564156205749544820484F4C414D20),
  (0xFB4C, 0x484542524557204C4554544552204245542057495448205241464520),
  (0xFB4D, 0x484542524557204C4554544552204B41462057495448205241464520),
  (0xFB4E, 0x484542524557204C45545445522050452057495448205241464520),
  (0xFB4F, 0x484542524557204C4947415455524520414C4546204C414D454420),
  (0xFB50, 0x415241424943204C455454455220414C4546205741534C412049534F4C4154454420464F524D20),
  (0xFB51, 0x415241424943204C455454455220414C4546205741534C412046494E414C20464F524D20)]
def names_241 : List (Nat × Nat) := [
  (0xFB52, 0x415241424943204C455454455220424545482049534F4C4154454420464F524D20),
  (0xFB53, 0x415241424943204C455454455220424545482046494E414C20464F524D20),
  (0xFB54, 0x415241424943204C4554544552204245454820494E495449414C20464F524D20),
  (0xFB55, 0x415241424943204C45545445522042454548204D454449414C20464F524D20),
  (0xFB56, 0x415241424943204C4554544552205045482049534F4C4154454420464F524D20),
  (0xFB57, 0x415241424943204C4554544552205045482046494E414C20464F524D20),
  (0xFB58, 0x415241424943204C45545445522050454820494E495449414C20464F524D20),
  (0xFB59, 0x415241424943204C455454455220504548204D454449414C20464F524D20),
  (0xFB5A, 0x415241424943204C45545445522042454845482049534F4C4154454420464F524D20),
  (0xFB5B, 0x415241424943204C45545445522042454845482046494E414C20464F524D20),
  (0xFB5C, 0x415241424943204C455454455220424548454820494E495449414C20464F524D20),
  (0xFB5D, 0x415241424943204C4554544552204245484548204D454449414C20464F524D20),
  (0xFB5E, 0x415241424943204C4554544552205454454845482049534F4C4154454420464F524D20),
  (0xFB5F, 0x415241424943204C4554544552205454454845482046494E414C20464F524D20),
  (0xFB60, 0x415241424943204C45545445522054544548454820494E495449414C20464F524D20),
  (0xFB61, 0x415241424943204C455454455220545445484548204D454449414C20464F524D20),
  (0xFB62, 0x415241424943204C45545445522054454845482049534F4C4154454420464F524D20),
  (0xFB63, 0x415241424943204C45545445522054454845482046494E414C20464F524D20),
  (0xFB64, 0x415241424943204C455454455220544548454820494E495449414C20464F524D20),
  (0xFB65, 0x415241424943204C4554544552205445484548204D454449414C20464F524D20),
  (0xFB66, 0x415241424943204C455454455220545445482049534F4C4154454420464F524D20),
  (0xFB67, 0x415241424943204C455454455220545445482046494E414C20464F524D20),
  (0xFB68, 0x415241424943204C4554544552205454454820494E495449414C20464F524D20),
  (0xFB69, 0x415241424943204C45545445522054544548204D454449414C20464F524D20),
  (0xFB6A, 0x415241424943204C4554544552205645482049534F4C4154454420464F524D20),
  (0xFB6B, 0x415241424943204C4554544552205645482046494E414C20464F524D20),
  (0xFB6C, 0x415241424943204C45545445522056454820494E495449414C20464F524D20),
  (0xFB6D, 0x415241424943204C455454455220564548204D454449414C20464F524D20),
  (0xFB6E, 0x415241424943204C45545445522050454845482049534F4C4154454420464F524D20),
  (0xFB6F, 0x415241424943204C45545445522050454845482046494E414C20464F524D20),
  (0xFB70, 0x415241424943204C455454455220504548454820494E495449414C20464F524D20),
  (0xFB71, 0x415241424943204C4554544552205045484548204D454449414C20464F524D20),
  (0xFB72, 0x415241424943204C455454455220445945482049534F4C4154454420464F524D20),
  (0xFB73, 0x415241424943204C455454455220445945482046494E414C20464F524D20),
  (0xFB74, 0x415241424943204C4554544552204459454820494E495449414C20464F524D20),
  (0xFB75, 0x415241424943204C45545445522044594548204D454449414C20464F524D20),
  (0xFB76, 0x415241424943204C4554544552204E5945482049534F4C4154454420464F524D20),
  (0xFB77, 0x415241424943204C4554544552204E5945482046494E414C20464F524D20),
  (0xFB78, 0x415241424943204C4554544552204E59454820494E495449414C20464F524D20),
  (0xFB79, 0x415241424943204C4554544552204E594548204D454449414C20464F524D20),
  (0xFB7A, 0x415241424943204C45545445522054434845482049534F4C4154454420464F524D20),
  (0xFB7B, 0x415241424943204C45545445522054434845482046494E414C20464F524D20),
  (0xFB7C, 0x415241424943204C455454455220544348454820494E495449414C20464F524D20),
  (0xFB7D, 0x415241424943204C4554544552205443484548204D454449414C20464F524D20),
  (0xFB7E, 0x415241424943204C455454455220544348454845482049534F4C4154454420464F524D20),
  (0xFB7F, 0x415241424943204C455454455220544348454845482046494E414C20464F524D20),
  (0xFB80, 0x415241424943204C4554544552205443484548454820494E495449414C20464F524D20),
  (0xFB81, 0x415241424943204C45545445522054434845484548204D454449414C20464F524D20),
  (0xFB82, 0x415241424943204C45545445522044444148414C2049534F4C4154454420464F524D20),
  (0xFB83, 0x415241424943204C45545445522044444148414C2046494E414C20464F524D20),
  (0xFB84, 0x415241424943204C455454455220444148414C2049534F4C4154454420464F524D20),
  (0xFB85, 0x415241424943204C455454455220444148414C2046494E414C20464F524D20),
  (0xFB86, 0x415241424943204C45545445522044554C2049534F4C4154454420464F524D20),
  (0xFB87, 0x415241424943204C45545445522044554C2046494E414C20464F524D20),
  (0xFB88, 0x415241424943204C4554544552204444414C2049534F4C4154454420464F524D20),
  (0xFB89, 0x415241424943204C4554544552204444414C2046494E414C20464F524D20),
  (0xFB8A, 0x415241424943204C4554544552204A45482049534F4C4154454420464F524D20),
  (0xFB8B, 0x415241424943204C4554544552204A45482046494E414C20464F524D20),
  (0xFB8C, 0x415241424943204C455454455220525245482049534F4C4154454420464F524D20),
  (0xFB8D, 0x415241424943204C455454455220525245482046494E414C20464F524D20),
  (0xFB8E, 0x415241424943204C4554544552204B454845482049534F4C4154454420464F524D20),
  (0xFB8F, 0x415241424943204C4554544552204B454845482046494E414C20464F524D20),
  (0xFB90, 0x415241424943204C4554544552204B4548454820494E495449414C20464F524D20),
  (0xFB91, 0x415241424943204C4554544552204B45484548204D454449414C20464F524D20)]
def names_242 : List (Nat × Nat) := [
  (0xFB92, 0x415241424943204C4554544552204741462049534F4C4154454420464F524D20),
  (0xFB93, 0x415241424943204C4554544552204741462046494E414C20464F524D20),
  (0xFB94, 0x415241424943204C45545445522047414620494E495449414C20464F524D20),
  (0xFB95, 0x415241424943204C455454455220474146204D454449414C20464F524D20),
  (0xFB96, 0x415241424943204C455454455220475545482049534F4C4154454420464F524D20),
  (0xFB97, 0x415241424943204C455454455220475545482046494E414C20464F524D20),
  (0xFB98, 0x415241424943204C4554544552204755454820494E495449414C20464F524D20),
  (0xFB99, 0x415241424943204C45545445522047554548204D454449414C20464F524D20),
  (0xFB9A, 0x415241424943204C4554544552204E474F45482049534F4C4154454420464F524D20),
  (0xFB9B, 0x415241424943204C4554544552204E474F45482046494E414C20464F524D20),
  (0xFB9C, 0x415241424943204C4554544552204E474F454820494E495449414C20464F524D20),
  (0xFB9D, 0x415241424943204C4554544552204E474F4548204D454449414C20464F524D20),
  (0xFB9E, 0x415241424943204C4554544552204E4F4F4E204748554E4E412049534F4C4154454420464F524D20),
  (0xFB9F, 0x415241424943204C4554544552204E4F4F4E204748554E4E412046494E414C20464F524D20),
  (0xFBA0, 0x415241424943204C455454455220524E4F4F4E2049534F4C4154454420464F524D20),
  (0xFBA1, 0x415241424943204C455454455220524E4F4F4E2046494E414C20464F524D20),
  (0xFBA2, 0x415241424943204C455454455220524E4F4F4E20494E495449414C20464F524D20),
  (0xFBA3, 0x415241424943204C455454455220524E4F4F4E204D454449414C20464F524D20),
  (0xFBA4, 0x415241424943204C4554544552204845482057495448205945482041424F56452049534F4C4154454420464F524D20),
  (0xFBA5, 0x415241424943204C4554544552204845482057495448205945482041424F56452046494E414C20464F524D20),
  (0xFBA6, 0x415241424943204C45545445522048454820474F414C2049534F4C4154454420464F524D20),
  (0xFBA7, 0x415241424943204C45545445522048454820474F414C2046494E414C20464F524D20),
  (0xFBA8, 0x415241424943204C45545445522048454820474F414C20494E495449414C20464F524D20),
  (0xFBA9, 0x415241424943204C45545445522048454820474F414C204D454449414C20464F524D20),
  (0xFBAA, 0x415241424943204C45545445522048454820444F4143484153484D45452049534F4C4154454420464F524D20),
  (0xFBAB, 0x415241424943204C45545445522048454820444F4143484153484D45452046494E414C20464F524D20),
  (0xFBAC, 0x415241424943204C45545445522048454820444F4143484153484D454520494E495449414C20464F524D20),
  (0xFBAD, 0x415241424943204C45545445522048454820444F4143484153484D4545204D454449414C20464F524D20),
  (0xFBAE, 0x415241424943204C455454455220594548204241525245452049534F4C4154454420464F524D20),
  (0xFBAF, 0x415241424943204C455454455220594548204241525245452046494E414C20464F524D20),
  (0xFBB0, 0x415241424943204C4554544552205945482042415252454520574954482048414D5A412041424F56452049534F4C4154454420464F524D20),
  (0xFBB1, 0x415241424943204C4554544552205945482042415252454520574954482048414D5A412041424F56452046494E414C20464F524D20),
  (0xFBB2, 0x4152414249432053594D424F4C20444F542041424F564520),
  (0xFBB3, 0x4152414249432053594D424F4C20444F542042454C4F5720),
  (0xFBB4, 0x4152414249432053594D424F4C2054574F20444F54532041424F564520),
  (0xFBB5, 0x4152414249432053594D424F4C2054574F20444F54532042454C4F5720),
  (0xFBB6, 0x4152414249432053594D424F4C20544852454520444F54532041424F564520),
  (0xFBB7, 0x4152414249432053594D424F4C20544852454520444F54532042454C4F5720),
  (0xFBB8, 0x4152414249432053594D424F4C20544852454520444F545320504F494E54494E4720444F574E57415244532041424F564520),
  (0xFBB9, 0x4152414249432053594D424F4C20544852454520444F545320504F494E54494E4720444F574E57415244532042454C4F5720),
  (0xFBBA, 0x4152414249432053594D424F4C20464F555220444F54532041424F564520),
  (0xFBBB, 0x4152414249432053594D424F4C20464F555220444F54532042454C4F5720),
  (0xFBBC, 0x4152414249432053594D424F4C20444F55424C4520564552544943414C204241522042454C4F5720),
  (0xFBBD, 0x4152414249432053594D424F4C2054574F20444F545320564552544943414C4C592041424F564520),
  (0xFBBE, 0x4152414249432053594D424F4C2054574F20444F545320564552544943414C4C592042454C4F5720),
  (0xFBBF, 0x4152414249432053594D424F4C2052494E4720),
  (0xFBC0, 0x4152414249432053594D424F4C20534D414C4C205441482041424F564520),
  (0xFBC1, 0x4152414249432053594D424F4C20534D414C4C205441482042454C4F5720),
  (0xFBD3, 0x415241424943204C4554544552204E472049534F4C4154454420464F524D20),
  (0xFBD4, 0x415241424943204C4554544552204E472046494E414C20464F524D20),
  (0xFBD5, 0x415241424943204C4554544552204E4720494E495449414C20464F524D20),
  (0xFBD6, 0x415241424943204C4554544552204E47204D454449414C20464F524D20),
  (0xFBD7, 0x415241424943204C455454455220552049534F4C4154454420464F524D20),
  (0xFBD8, 0x415241424943204C455454455220552046494E414C20464F524D20),
  (0xFBD9, 0x415241424943204C4554544552204F452049534F4C4154454420464F524D20),
  (0xFBDA, 0x415241424943204C4554544552204F452046494E414C20464F524D20),
  (0xFBDB, 0x415241424943204C45545445522059552049534F4C4154454420464F524D20),
  (0xFBDC, 0x415241424943204C45545445522059552046494E414C20464F524D20),
  (0xFBDD, 0x415241424943204C4554544552205520574954482048414D5A412041424F56452049534F4C4154454420464F524D20),
  (0xFBDE, 0x415241424943204C45545445522056452049534F4C4154454420464F524D20),
  (0xFBDF, 0x415241424943204C45545445522056452046494E414C20464F524D20),
  (0xFBE0, 0x415241424943204C4554544552204B49524748495A204F452049534F4C4154454420464F524D20),
  (0xFBE1, 0x415241424943204C4554544552204B49524748495A204F452046494E414C20464F524D20),
  (0xFBE2, 0x415241424943204C4554544552204B49524748495A2059552049534F4C4154454420464F524D20)]
def names_243 : List (Nat × Nat) := [
  (0xFBE3, 0x415241424943204C4554544552204B49524748495A2059552046494E414C20464F524D20),
  (0xFBE4, 0x415241424943204C455454455220452049534F4C4154454420464F524D20),
  (0xFBE5, 0x415241424943204C455454455220452046494E414C20464F524D20),
  (0xFBE6, 0x415241424943204C4554544552204520494E495449414C20464F524D20),
  (0xFBE7, 0x415241424943204C45545445522045204D454449414C20464F524D20),
  (0xFBE8, 0x415241424943204C455454455220554947485552204B415A414B48204B49524748495A20414C4546204D414B5355524120494E495449414C20464F524D20),
  (0xFBE9, 0x415241424943204C455454455220554947485552204B415A414B48204B49524748495A20414C4546204D414B53555241204D454449414C20464F524D20),
  (0xFBEA, 0x415241424943204C494741545552452059454820574954482048414D5A412041424F5645205749544820414C45462049534F4C4154454420464F524D20),
  (0xFBEB, 0x415241424943204C494741545552452059454820574954482048414D5A412041424F5645205749544820414C45462046494E414C20464F524D20),
  (0xFBEC, 0x415241424943204C494741545552452059454820574954482048414D5A412041424F564520574954482041452049534F4C4154454420464F524D20),
  (0xFBED, 0x415241424943204C494741545552452059454820574954482048414D5A412041424F564520574954482041452046494E414C20464F524D20),
  (0xFBEE, 0x415241424943204C494741545552452059454820574954482048414D5A412041424F56452057495448205741572049534F4C4154454420464F524D20),
  (0xFBEF, 0x415241424943204C494741545552452059454820574954482048414D5A412041424F56452057495448205741572046494E414C20464F524D20),
  (0xFBF0, 0x415241424943204C494741545552452059454820574954482048414D5A412041424F5645205749544820552049534F4C4154454420464F524D20),
  (0xFBF1, 0x415241424943204C494741545552452059454820574954482048414D5A412041424F5645205749544820552046494E414C20464F524D20),
  (0xFBF2, 0x415241424943204C494741545552452059454820574954482048414D5A412041424F56452057495448204F452049534F4C4154454420464F524D20),
  (0xFBF3, 0x415241424943204C494741545552452059454820574954482048414D5A412041424F56452057495448204F452046494E414C20464F524D20),
  (0xFBF4, 0x415241424943204C494741545552452059454820574954482048414D5A412041424F564520574954482059552049534F4C4154454420464F524D20),
  (0xFBF5, 0x415241424943204C494741545552452059454820574954482048414D5A412041424F564520574954482059552046494E414C20464F524D20),
  (0xFBF6, 0x415241424943204C494741545552452059454820574954482048414D5A412041424F5645205749544820452049534F4C4154454420464F524D20),
  (0xFBF7, 0x415241424943204C494741545552452059454820574954482048414D5A412041424F5645205749544820452046494E414C20464F524D20),
  (0xFBF8, 0x415241424943204C494741545552452059454820574954482048414D5A412041424F56452057495448204520494E495449414C20464F524D20),
  (0xFBF9, 0x415241424943204C4947415455524520554947485552204B49524748495A2059454820574954482048414D5A412041424F5645205749544820414C4546204D414B535552412049534F4C4154454420464F524D20),
  (0xFBFA, 0x415241424943204C4947415455524520554947485552204B49524748495A2059454820574954482048414D5A412041424F5645205749544820414C4546204D414B535552412046494E414C20464F524D20),
  (0xFBFB, 0x415241424943204C4947415455524520554947485552204B49524748495A2059454820574954482048414D5A412041424F5645205749544820414C4546204D414B5355524120494E495449414C20464F524D20),
  (0xFBFC, 0x415241424943204C4554544552204641525349205945482049534F4C4154454420464F524D20),
  (0xFBFD, 0x415241424943204C4554544552204641525349205945482046494E414C20464F524D20),
  (0xFBFE, 0x415241424943204C45545445522046415253492059454820494E495449414C20464F524D20),
  (0xFBFF, 0x415241424943204C455454455220464152534920594548204D454449414C20464F524D20),
  (0xFC00, 0x415241424943204C494741545552452059454820574954482048414D5A412041424F56452057495448204A45454D2049534F4C4154454420464F524D20),
  (0xFC01, 0x415241424943204C494741545552452059454820574954482048414D5A412041424F56452057495448204841482049534F4C4154454420464F524D20),
  (0xFC02, 0x415241424943204C494741545552452059454820574954482048414D5A412041424F56452057495448204D45454D2049534F4C4154454420464F524D20),
  (0xFC03, 0x415241424943204C494741545552452059454820574954482048414D5A412041424F5645205749544820414C4546204D414B535552412049534F4C4154454420464F524D20),
  (0xFC04, 0x415241424943204C494741545552452059454820574954482048414D5A412041424F56452057495448205945482049534F4C4154454420464F524D20),
  (0xFC05, 0x415241424943204C49474154555245204245482057495448204A45454D2049534F4C4154454420464F524D20),
  (0xFC06, 0x415241424943204C49474154555245204245482057495448204841482049534F4C4154454420464F524D20),
  (0xFC07, 0x415241424943204C49474154555245204245482057495448204B4841482049534F4C4154454420464F524D20),
  (0xFC08, 0x415241424943204C49474154555245204245482057495448204D45454D2049534F4C4154454420464F524D20),
  (0xFC09, 0x415241424943204C4947415455524520424548205749544820414C4546204D414B535552412049534F4C4154454420464F524D20),
  (0xFC0A, 0x415241424943204C49474154555245204245482057495448205945482049534F4C4154454420464F524D20),
  (0xFC0B, 0x415241424943204C49474154555245205445482057495448204A45454D2049534F4C4154454420464F524D20),
  (0xFC0C, 0x415241424943204C49474154555245205445482057495448204841482049534F4C4154454420464F524D20),
  (0xFC0D, 0x415241424943204C49474154555245205445482057495448204B4841482049534F4C4154454420464F524D20),
  (0xFC0E, 0x415241424943204C49474154555245205445482057495448204D45454D2049534F4C4154454420464F524D20),
  (0xFC0F, 0x415241424943204C4947415455524520544548205749544820414C4546204D414B535552412049534F4C4154454420464F524D20),
  (0xFC10, 0x415241424943204C49474154555245205445482057495448205945482049534F4C4154454420464F524D20),
  (0xFC11, 0x415241424943204C4947415455524520544845482057495448204A45454D2049534F4C4154454420464F524D20),
  (0xFC12, 0x415241424943204C4947415455524520544845482057495448204D45454D2049534F4C4154454420464F524D20),
  (0xFC13, 0x415241424943204C494741545552452054484548205749544820414C4546204D414B535552412049534F4C4154454420464F524D20),
  (0xFC14, 0x415241424943204C4947415455524520544845482057495448205945482049534F4C4154454420464F524D20),
  (0xFC15, 0x415241424943204C49474154555245204A45454D2057495448204841482049534F4C4154454420464F524D20),
  (0xFC16, 0x415241424943204C49474154555245204A45454D2057495448204D45454D2049534F4C4154454420464F524D20),
  (0xFC17, 0x415241424943204C49474154555245204841482057495448204A45454D2049534F4C4154454420464F524D20),
  (0xFC18, 0x415241424943204C49474154555245204841482057495448204D45454D2049534F4C4154454420464F524D20),
  (0xFC19, 0x415241424943204C49474154555245204B4841482057495448204A45454D2049534F4C4154454420464F524D20),
  (0xFC1A, 0x415241424943204C49474154555245204B4841482057495448204841482049534F4C4154454420464F524D20),
  (0xFC1B, 0x415241424943204C49474154555245204B4841482057495448204D45454D2049534F4C4154454420464F524D20),
  (0xFC1C, 0x415241424943204C49474154555245205345454E2057495448204A45454D2049534F4C4154454420464F524D20),
  (0xFC1D, 0x415241424943204C49474154555245205345454E2057495448204841482049534F4C4154454420464F524D20),
  (0xFC1E, 0x415241424943204C49474154555245205345454E2057495448204B4841482049534F4C4154454420464F524D20),
  (0xFC1F, 0x415241424943204C49474154555245205345454E2057495448204D45454D2049534F4C4154454420464F524D20),
  (0xFC20, 0x415241424943204C49474154555245205341442057495448204841482049534F4C4154454420464F524D20),
  (0xFC21, 0x415241424943204C49474154555245205341442057495448204D45454D2049534F4C4154454420464F524D20),
  (0xFC22, 0x415241424943204C49474154555245204441442057495448204A45454D2049534F4C4154454420464F524D20)]
def names_244 : List (Nat × Nat) := [
  (0xFC23, 0x415241424943204C49474154555245204441442057495448204841482049534F4C4154454420464F524D20),
  (0xFC24, 0x415241424943204C49474154555245204441442057495448204B4841482049534F4C4154454420464F524D20),
  (0xFC25, 0x415241424943204C49474154555245204441442057495448204D45454D2049534F4C4154454420464F524D20),
  (0xFC26, 0x415241424943204C49474154555245205441482057495448204841482049534F4C4154454420464F524D20),
  (0xFC27, 0x415241424943204C49474154555245205441482057495448204D45454D2049534F4C4154454420464F524D20),
  (0xFC28, 0x415241424943204C49474154555245205A41482057495448204D45454D2049534F4C4154454420464F524D20),
  (0xFC29, 0x415241424943204C494741545552452041494E2057495448204A45454D2049534F4C4154454420464F524D20),
  (0xFC2A, 0x415241424943204C494741545552452041494E2057495448204D45454D2049534F4C4154454420464F524D20),
  (0xFC2B, 0x415241424943204C4947415455524520474841494E2057495448204A45454D2049534F4C4154454420464F524D20),
  (0xFC2C, 0x415241424943204C4947415455524520474841494E2057495448204D45454D2049534F4C4154454420464F524D20),
  (0xFC2D, 0x415241424943204C49474154555245204645482057495448204A45454D2049534F4C4154454420464F524D20),
  (0xFC2E, 0x415241424943204C49474154555245204645482057495448204841482049534F4C4154454420464F524D20),
  (0xFC2F, 0x415241424943204C49474154555245204645482057495448204B4841482049534F4C4154454420464F524D20),
  (0xFC30, 0x415241424943204C49474154555245204645482057495448204D45454D2049534F4C4154454420464F524D20),
  (0xFC31, 0x415241424943204C4947415455524520464548205749544820414C4546204D414B535552412049534F4C4154454420464F524D20),
  (0xFC32, 0x415241424943204C49474154555245204645482057495448205945482049534F4C4154454420464F524D20),
  (0xFC33, 0x415241424943204C49474154555245205141462057495448204841482049534F4C4154454420464F524D20),
  (0xFC34, 0x415241424943204C49474154555245205141462057495448204D45454D2049534F4C4154454420464F524D20),
  (0xFC35, 0x415241424943204C4947415455524520514146205749544820414C4546204D414B535552412049534F4C4154454420464F524D20),
  (0xFC36, 0x415241424943204C49474154555245205141462057495448205945482049534F4C4154454420464F524D20),
  (0xFC37, 0x415241424943204C49474154555245204B4146205749544820414C45462049534F4C4154454420464F524D20),
  (0xFC38, 0x415241424943204C49474154555245204B41462057495448204A45454D2049534F4C4154454420464F524D20),
  (0xFC39, 0x415241424943204C49474154555245204B41462057495448204841482049534F4C4154454420464F524D20),
  (0xFC3A, 0x415241424943204C49474154555245204B41462057495448204B4841482049534F4C4154454420464F524D20),
  (0xFC3B, 0x415241424943204C49474154555245204B41462057495448204C414D2049534F4C4154454420464F524D20),
  (0xFC3C, 0x415241424943204C49474154555245204B41462057495448204D45454D2049534F4C4154454420464F524D20),
  (0xFC3D, 0x415241424943204C49474154555245204B4146205749544820414C4546204D414B535552412049534F4C4154454420464F524D20),
  (0xFC3E, 0x415241424943204C49474154555245204B41462057495448205945482049534F4C4154454420464F524D20),
  (0xFC3F, 0x415241424943204C49474154555245204C414D2057495448204A45454D2049534F4C4154454420464F524D20),
  (0xFC40, 0x415241424943204C49474154555245204C414D2057495448204841482049534F4C4154454420464F524D20),
  (0xFC41, 0x415241424943204C49474154555245204C414D2057495448204B4841482049534F4C4154454420464F524D20),
  (0xFC42, 0x415241424943204C49474154555245204C414D2057495448204D45454D2049534F4C4154454420464F524D20),
  (0xFC43, 0x415241424943204C49474154555245204C414D205749544820414C4546204D414B535552412049534F4C4154454420464F524D20),
  (0xFC44, 0x415241424943204C49474154555245204C414D2057495448205945482049534F4C4154454420464F524D20),
  (0xFC45, 0x415241424943204C49474154555245204D45454D2057495448204A45454D2049534F4C4154454420464F524D20),
  (0xFC46, 0x415241424943204C49474154555245204D45454D2057495448204841482049534F4C4154454420464F524D20),
  (0xFC47, 0x415241424943204C49474154555245204D45454D2057495448204B4841482049534F4C4154454420464F524D20),
  (0xFC48, 0x415241424943204C49474154555245204D45454D2057495448204D45454D2049534F4C4154454420464F524D20),
  (0xFC49, 0x415241424943204C49474154555245204D45454D205749544820414C4546204D414B535552412049534F4C4154454420464F524D20),
  (0xFC4A, 0x415241424943204C49474154555245204D45454D2057495448205945482049534F4C4154454420464F524D20),
  (0xFC4B, 0x415241424943204C49474154555245204E4F4F4E2057495448204A45454D2049534F4C4154454420464F524D20),
  (0xFC4C, 0x415241424943204C49474154555245204E4F4F4E2057495448204841482049534F4C4154454420464F524D20),
  (0xFC4D, 0x415241424943204C49474154555245204E4F4F4E2057495448204B4841482049534F4C4154454420464F524D20),
  (0xFC4E, 0x415241424943204C49474154555245204E4F4F4E2057495448204D45454D2049534F4C4154454420464F524D20),
  (0xFC4F, 0x415241424943204C49474154555245204E4F4F4E205749544820414C4546204D414B535552412049534F4C4154454420464F524D20),
  (0xFC50, 0x415241424943204C49474154555245204E4F4F4E2057495448205945482049534F4C4154454420464F524D20),
  (0xFC51, 0x415241424943204C49474154555245204845482057495448204A45454D2049534F4C4154454420464F524D20),
  (0xFC52, 0x415241424943204C49474154555245204845482057495448204D45454D2049534F4C4154454420464F524D20),
  (0xFC53, 0x415241424943204C4947415455524520484548205749544820414C4546204D414B535552412049534F4C4154454420464F524D20),
  (0xFC54, 0x415241424943204C49474154555245204845482057495448205945482049534F4C4154454420464F524D20),
  (0xFC55, 0x415241424943204C49474154555245205945482057495448204A45454D2049534F4C4154454420464F524D20),
  (0xFC56, 0x415241424943204C49474154555245205945482057495448204841482049534F4C4154454420464F524D20),
  (0xFC57, 0x415241424943204C49474154555245205945482057495448204B4841482049534F4C4154454420464F524D20),
  (0xFC58, 0x415241424943204C49474154555245205945482057495448204D45454D2049534F4C4154454420464F524D20),
  (0xFC59, 0x415241424943204C4947415455524520594548205749544820414C4546204D414B535552412049534F4C4154454420464F524D20),
  (0xFC5A, 0x415241424943204C49474154555245205945482057495448205945482049534F4C4154454420464F524D20),
  (0xFC5B, 0x415241424943204C49474154555245205448414C205749544820535550455253435249505420414C45462049534F4C4154454420464F524D20),
  (0xFC5C, 0x415241424943204C4947415455524520524548205749544820535550455253435249505420414C45462049534F4C4154454420464F524D20),
  (0xFC5D, 0x415241424943204C4947415455524520414C4546204D414B53555241205749544820535550455253435249505420414C45462049534F4C4154454420464F524D20),
  (0xFC5E, 0x415241424943204C494741545552452053484144444120574954482044414D4D4154414E2049534F4C4154454420464F524D20),
  (0xFC5F, 0x415241424943204C49474154555245205348414444412057495448204B4153524154414E2049534F4C4154454420464F524D20),
  (0xFC60, 0x415241424943204C494741545552452053484144444120574954482046415448412049534F4C4154454420464F524D20),
  (0xFC61, 0x415241424943204C494741545552452053484144444120574954482044414D4D412049534F4C4154454420464F524D20),
  (0xFC62, 0x415241424943204C49474154555245205348414444412057495448204B415352412049534F4C4154454420464F524D20)]
def names_245 : List (Nat × Nat) := [
  (0xFC63, 0x415241424943204C4947415455524520534841444441205749544820535550455253435249505420414C45462049534F4C4154454420464F524D20),
  (0xFC64, 0x415241424943204C494741545552452059454820574954482048414D5A412041424F56452057495448205245482046494E414C20464F524D20),
  (0xFC65, 0x415241424943204C494741545552452059454820574954482048414D5A412041424F56452057495448205A41494E2046494E414C20464F524D20),
  (0xFC66, 0x415241424943204C494741545552452059454820574954482048414D5A412041424F56452057495448204D45454D2046494E414C20464F524D20),
  (0xFC67, 0x415241424943204C494741545552452059454820574954482048414D5A412041424F56452057495448204E4F4F4E2046494E414C20464F524D20),
  (0xFC68, 0x415241424943204C494741545552452059454820574954482048414D5A412041424F5645205749544820414C4546204D414B535552412046494E414C20464F524D20),
  (0xFC69, 0x415241424943204C494741545552452059454820574954482048414D5A412041424F56452057495448205945482046494E414C20464F524D20),
  (0xFC6A, 0x415241424943204C49474154555245204245482057495448205245482046494E414C20464F524D20),
  (0xFC6B, 0x415241424943204C49474154555245204245482057495448205A41494E2046494E414C20464F524D20),
  (0xFC6C, 0x415241424943204C49474154555245204245482057495448204D45454D2046494E414C20464F524D20),
  (0xFC6D, 0x415241424943204C49474154555245204245482057495448204E4F4F4E2046494E414C20464F524D20),
  (0xFC6E, 0x415241424943204C4947415455524520424548205749544820414C4546204D414B535552412046494E414C20464F524D20),
  (0xFC6F, 0x415241424943204C49474154555245204245482057495448205945482046494E414C20464F524D20),
  (0xFC70, 0x415241424943204C49474154555245205445482057495448205245482046494E414C20464F524D20),
  (0xFC71, 0x415241424943204C49474154555245205445482057495448205A41494E2046494E414C20464F524D20),
  (0xFC72, 0x415241424943204C49474154555245205445482057495448204D45454D2046494E414C20464F524D20),
  (0xFC73, 0x415241424943204C49474154555245205445482057495448204E4F4F4E2046494E414C20464F524D20),
  (0xFC74, 0x415241424943204C4947415455524520544548205749544820414C4546204D414B535552412046494E414C20464F524D20),
  (0xFC75, 0x415241424943204C49474154555245205445482057495448205945482046494E414C20464F524D20),
  (0xFC76, 0x415241424943204C4947415455524520544845482057495448205245482046494E414C20464F524D20),
  (0xFC77, 0x415241424943204C4947415455524520544845482057495448205A41494E2046494E414C20464F524D20),
  (0xFC78, 0x415241424943204C4947415455524520544845482057495448204D45454D2046494E414C20464F524D20),
  (0xFC79, 0x415241424943204C4947415455524520544845482057495448204E4F4F4E2046494E414C20464F524D20),
  (0xFC7A, 0x415241424943204C494741545552452054484548205749544820414C4546204D414B535552412046494E414C20464F524D20),
  (0xFC7B, 0x415241424943204C4947415455524520544845482057495448205945482046494E414C20464F524D20),
  (0xFC7C, 0x415241424943204C4947415455524520464548205749544820414C4546204D414B535552412046494E414C20464F524D20),
  (0xFC7D, 0x415241424943204C49474154555245204645482057495448205945482046494E414C20464F524D20),
  (0xFC7E, 0x415241424943204C4947415455524520514146205749544820414C4546204D414B535552412046494E414C20464F524D20),
  (0xFC7F, 0x415241424943204C49474154555245205141462057495448205945482046494E414C20464F524D20),
  (0xFC80, 0x415241424943204C49474154555245204B4146205749544820414C45462046494E414C20464F524D20),
  (0xFC81, 0x415241424943204C49474154555245204B41462057495448204C414D2046494E414C20464F524D20),
  (0xFC82, 0x415241424943204C49474154555245204B41462057495448204D45454D2046494E414C20464F524D20),
  (0xFC83, 0x415241424943204C49474154555245204B4146205749544820414C4546204D414B535552412046494E414C20464F524D20),
  (0xFC84, 0x415241424943204C49474154555245204B41462057495448205945482046494E414C20464F524D20),
  (0xFC85, 0x415241424943204C49474154555245204C414D2057495448204D45454D2046494E414C20464F524D20),
  (0xFC86, 0x415241424943204C49474154555245204C414D205749544820414C4546204D414B535552412046494E414C20464F524D20),
  (0xFC87, 0x415241424943204C49474154555245204C414D2057495448205945482046494E414C20464F524D20),
  (0xFC88, 0x415241424943204C49474154555245204D45454D205749544820414C45462046494E414C20464F524D20),
  (0xFC89, 0x415241424943204C49474154555245204D45454D2057495448204D45454D2046494E414C20464F524D20),
  (0xFC8A, 0x415241424943204C49474154555245204E4F4F4E2057495448205245482046494E414C20464F524D20),
  (0xFC8B, 0x415241424943204C49474154555245204E4F4F4E2057495448205A41494E2046494E414C20464F524D20),
  (0xFC8C, 0x415241424943204C49474154555245204E4F4F4E2057495448204D45454D2046494E414C20464F524D20),
  (0xFC8D, 0x415241424943204C49474154555245204E4F4F4E2057495448204E4F4F4E2046494E414C20464F524D20),
  (0xFC8E, 0x415241424943204C49474154555245204E4F4F4E205749544820414C4546204D414B535552412046494E414C20464F524D20),
  (0xFC8F, 0x415241424943204C49474154555245204E4F4F4E2057495448205945482046494E414C20464F524D20),
  (0xFC90, 0x415241424943204C4947415455524520414C4546204D414B53555241205749544820535550455253435249505420414C45462046494E414C20464F524D20),
  (0xFC91, 0x415241424943204C49474154555245205945482057495448205245482046494E414C20464F524D20),
  (0xFC92, 0x415241424943204C49474154555245205945482057495448205A41494E2046494E414C20464F524D20),
  (0xFC93, 0x415241424943204C49474154555245205945482057495448204D45454D2046494E414C20464F524D20),
  (0xFC94, 0x415241424943204C49474154555245205945482057495448204E4F4F4E2046494E414C20464F524D20),
  (0xFC95, 0x415241424943204C4947415455524520594548205749544820414C4546204D414B535552412046494E414C20464F524D20),
  (0xFC96, 0x415241424943204C49474154555245205945482057495448205945482046494E414C20464F524D20),
  (0xFC97, 0x415241424943204C494741545552452059454820574954482048414D5A412041424F56452057495448204A45454D20494E495449414C20464F524D20),
  (0xFC98, 0x415241424943204C494741545552452059454820574954482048414D5A412041424F564520574954482048414820494E495449414C20464F524D20),
  (0xFC99, 0x415241424943204C494741545552452059454820574954482048414D5A412041424F56452057495448204B48414820494E495449414C20464F524D20),
  (0xFC9A, 0x415241424943204C494741545552452059454820574954482048414D5A412041424F56452057495448204D45454D20494E495449414C20464F524D20),
  (0xFC9B, 0x415241424943204C494741545552452059454820574954482048414D5A412041424F564520574954482048454820494E495449414C20464F524D20),
  (0xFC9C, 0x415241424943204C49474154555245204245482057495448204A45454D20494E495449414C20464F524D20),
  (0xFC9D, 0x415241424943204C494741545552452042454820574954482048414820494E495449414C20464F524D20),
  (0xFC9E, 0x415241424943204C49474154555245204245482057495448204B48414820494E495449414C20464F524D20),
  (0xFC9F, 0x415241424943204C49474154555245204245482057495448204D45454D20494E495449414C20464F524D20),
  (0xFCA0, 0x415241424943204C494741545552452042454820574954482048454820494E495449414C20464F524D20),
  (0xFCA1, 0x415241424943204C49474154555245205445482057495448204A45454D20494E495449414C20464F524D20),
  (0xFCA2, 0x415241424943204C494741545552452054454820574954482048414820494E495449414C20464F524D20)]
def names_246 : List (Nat × Nat) := [
  (0xFCA3, 0x415241424943204C49474154555245205445482057495448204B48414820494E495449414C20464F524D20),
  (0xFCA4, 0x415241424943204C49474154555245205445482057495448204D45454D20494E495449414C20464F524D20),
  (0xFCA5, 0x415241424943204C494741545552452054454820574954482048454820494E495449414C20464F524D20),
  (0xFCA6, 0x415241424943204C4947415455524520544845482057495448204D45454D20494E495449414C20464F524D20),
  (0xFCA7, 0x415241424943204C49474154555245204A45454D20574954482048414820494E495449414C20464F524D20),
  (0xFCA8, 0x415241424943204C49474154555245204A45454D2057495448204D45454D20494E495449414C20464F524D20),
  (0xFCA9, 0x415241424943204C49474154555245204841482057495448204A45454D20494E495449414C20464F524D20),
  (0xFCAA, 0x415241424943204C49474154555245204841482057495448204D45454D20494E495449414C20464F524D20),
  (0xFCAB, 0x415241424943204C49474154555245204B4841482057495448204A45454D20494E495449414C20464F524D20),
  (0xFCAC, 0x415241424943204C49474154555245204B4841482057495448204D45454D20494E495449414C20464F524D20),
  (0xFCAD, 0x415241424943204C49474154555245205345454E2057495448204A45454D20494E495449414C20464F524D20),
  (0xFCAE, 0x415241424943204C49474154555245205345454E20574954482048414820494E495449414C20464F524D20),
  (0xFCAF, 0x415241424943204C49474154555245205345454E2057495448204B48414820494E495449414C20464F524D20),
  (0xFCB0, 0x415241424943204C49474154555245205345454E2057495448204D45454D20494E495449414C20464F524D20),
  (0xFCB1, 0x415241424943204C494741545552452053414420574954482048414820494E495449414C20464F524D20),
  (0xFCB2, 0x415241424943204C49474154555245205341442057495448204B48414820494E495449414C20464F524D20),
  (0xFCB3, 0x415241424943204C49474154555245205341442057495448204D45454D20494E495449414C20464F524D20),
  (0xFCB4, 0x415241424943204C49474154555245204441442057495448204A45454D20494E495449414C20464F524D20),
  (0xFCB5, 0x415241424943204C494741545552452044414420574954482048414820494E495449414C20464F524D20),
  (0xFCB6, 0x415241424943204C49474154555245204441442057495448204B48414820494E495449414C20464F524D20),
  (0xFCB7, 0x415241424943204C49474154555245204441442057495448204D45454D20494E495449414C20464F524D20),
  (0xFCB8, 0x415241424943204C494741545552452054414820574954482048414820494E495449414C20464F524D20),
  (0xFCB9, 0x415241424943204C49474154555245205A41482057495448204D45454D20494E495449414C20464F524D20),
  (0xFCBA, 0x415241424943204C494741545552452041494E2057495448204A45454D20494E495449414C20464F524D20),
  (0xFCBB, 0x415241424943204C494741545552452041494E2057495448204D45454D20494E495449414C20464F524D20),
  (0xFCBC, 0x415241424943204C4947415455524520474841494E2057495448204A45454D20494E495449414C20464F524D20),
  (0xFCBD, 0x415241424943204C4947415455524520474841494E2057495448204D45454D20494E495449414C20464F524D20),
  (0xFCBE, 0x415241424943204C49474154555245204645482057495448204A45454D20494E495449414C20464F524D20),
  (0xFCBF, 0x415241424943204C494741545552452046454820574954482048414820494E495449414C20464F524D20),
  (0xFCC0, 0x415241424943204C49474154555245204645482057495448204B48414820494E495449414C20464F524D20),
  (0xFCC1, 0x415241424943204C49474154555245204645482057495448204D45454D20494E495449414C20464F524D20),
  (0xFCC2, 0x415241424943204C494741545552452051414620574954482048414820494E495449414C20464F524D20),
  (0xFCC3, 0x415241424943204C49474154555245205141462057495448204D45454D20494E495449414C20464F524D20),
  (0xFCC4, 0x415241424943204C49474154555245204B41462057495448204A45454D20494E495449414C20464F524D20),
  (0xFCC5, 0x415241424943204C49474154555245204B414620574954482048414820494E495449414C20464F524D20),
  (0xFCC6, 0x415241424943204C49474154555245204B41462057495448204B48414820494E495449414C20464F524D20),
  (0xFCC7, 0x415241424943204C49474154555245204B41462057495448204C414D20494E495449414C20464F524D20),
  (0xFCC8, 0x415241424943204C49474154555245204B41462057495448204D45454D20494E495449414C20464F524D20),
  (0xFCC9, 0x415241424943204C49474154555245204C414D2057495448204A45454D20494E495449414C20464F524D20),
  (0xFCCA, 0x415241424943204C49474154555245204C414D20574954482048414820494E495449414C20464F524D20),
  (0xFCCB, 0x415241424943204C49474154555245204C414D2057495448204B48414820494E495449414C20464F524D20),
  (0xFCCC, 0x415241424943204C49474154555245204C414D2057495448204D45454D20494E495449414C20464F524D20),
  (0xFCCD, 0x415241424943204C49474154555245204C414D20574954482048454820494E495449414C20464F524D20),
  (0xFCCE, 0x415241424943204C49474154555245204D45454D2057495448204A45454D20494E495449414C20464F524D20),
  (0xFCCF, 0x415241424943204C49474154555245204D45454D20574954482048414820494E495449414C20464F524D20),
  (0xFCD0, 0x415241424943204C49474154555245204D45454D2057495448204B48414820494E495449414C20464F524D20),
  (0xFCD1, 0x415241424943204C49474154555245204D45454D2057495448204D45454D20494E495449414C20464F524D20),
  (0xFCD2, 0x415241424943204C49474154555245204E4F4F4E2057495448204A45454D20494E495449414C20464F524D20),
  (0xFCD3, 0x415241424943204C49474154555245204E4F4F4E20574954482048414820494E495449414C20464F524D20),
  (0xFCD4, 0x415241424943204C49474154555245204E4F4F4E2057495448204B48414820494E495449414C20464F524D20),
  (0xFCD5, 0x415241424943204C49474154555245204E4F4F4E2057495448204D45454D20494E495449414C20464F524D20),
  (0xFCD6, 0x415241424943204C49474154555245204E4F4F4E20574954482048454820494E495449414C20464F524D20),
  (0xFCD7, 0x415241424943204C49474154555245204845482057495448204A45454D20494E495449414C20464F524D20),
  (0xFCD8, 0x415241424943204C49474154555245204845482057495448204D45454D20494E495449414C20464F524D20),
  (0xFCD9, 0x415241424943204C4947415455524520484548205749544820535550455253435249505420414C454620494E495449414C20464F524D20),
  (0xFCDA, 0x415241424943204C49474154555245205945482057495448204A45454D20494E495449414C20464F524D20),
  (0xFCDB, 0x415241424943204C494741545552452059454820574954482048414820494E495449414C20464F524D20),
  (0xFCDC, 0x415241424943204C49474154555245205945482057495448204B48414820494E495449414C20464F524D20),
  (0xFCDD, 0x415241424943204C49474154555245205945482057495448204D45454D20494E495449414C20464F524D20),
  (0xFCDE, 0x415241424943204C494741545552452059454820574954482048454820494E495449414C20464F524D20),
  (0xFCDF, 0x415241424943204C494741545552452059454820574954482048414D5A412041424F56452057495448204D45454D204D454449414C20464F524D20),
  (0xFCE0, 0x415241424943204C494741545552452059454820574954482048414D5A412041424F5645205749544820484548204D454449414C20464F524D20),
  (0xFCE1, 0x415241424943204C49474154555245204245482057495448204D45454D204D454449414C20464F524D20),
  (0xFCE2, 0x415241424943204C4947415455524520424548205749544820484548204D454449414C20464F524D20)]
def names_247 : List (Nat × Nat) := [
  (0xFCE3, 0x415241424943204C49474154555245205445482057495448204D45454D204D454449414C20464F524D20),
  (0xFCE4, 0x415241424943204C4947415455524520544548205749544820484548204D454449414C20464F524D20),
  (0xFCE5, 0x415241424943204C4947415455524520544845482057495448204D45454D204D454449414C20464F524D20),
  (0xFCE6, 0x415241424943204C494741545552452054484548205749544820484548204D454449414C20464F524D20),
  (0xFCE7, 0x415241424943204C49474154555245205345454E2057495448204D45454D204D454449414C20464F524D20),
  (0xFCE8, 0x415241424943204C49474154555245205345454E205749544820484548204D454449414C20464F524D20),
  (0xFCE9, 0x415241424943204C4947415455524520534845454E2057495448204D45454D204D454449414C20464F524D20),
  (0xFCEA, 0x415241424943204C4947415455524520534845454E205749544820484548204D454449414C20464F524D20),
  (0xFCEB, 0x415241424943204C49474154555245204B41462057495448204C414D204D454449414C20464F524D20),
  (0xFCEC, 0x415241424943204C49474154555245204B41462057495448204D45454D204D454449414C20464F524D20),
  (0xFCED, 0x415241424943204C49474154555245204C414D2057495448204D45454D204D454449414C20464F524D20),
  (0xFCEE, 0x415241424943204C49474154555245204E4F4F4E2057495448204D45454D204D454449414C20464F524D20),
  (0xFCEF, 0x415241424943204C49474154555245204E4F4F4E205749544820484548204D454449414C20464F524D20),
  (0xFCF0, 0x415241424943204C49474154555245205945482057495448204D45454D204D454449414C20464F524D20),
  (0xFCF1, 0x415241424943204C4947415455524520594548205749544820484548204D454449414C20464F524D20),
  (0xFCF2, 0x415241424943204C49474154555245205348414444412057495448204641544841204D454449414C20464F524D20),
  (0xFCF3, 0x415241424943204C494741545552452053484144444120574954482044414D4D41204D454449414C20464F524D20),
  (0xFCF4, 0x415241424943204C49474154555245205348414444412057495448204B41535241204D454449414C20464F524D20),
  (0xFCF5, 0x415241424943204C4947415455524520544148205749544820414C4546204D414B535552412049534F4C4154454420464F524D20),
  (0xFCF6, 0x415241424943204C49474154555245205441482057495448205945482049534F4C4154454420464F524D20),
  (0xFCF7, 0x415241424943204C494741545552452041494E205749544820414C4546204D414B535552412049534F4C4154454420464F524D20),
  (0xFCF8, 0x415241424943204C494741545552452041494E2057495448205945482049534F4C4154454420464F524D20),
  (0xFCF9, 0x415241424943204C4947415455524520474841494E205749544820414C4546204D414B535552412049534F4C4154454420464F524D20),
  (0xFCFA, 0x415241424943204C4947415455524520474841494E2057495448205945482049534F4C4154454420464F524D20),
  (0xFCFB, 0x415241424943204C49474154555245205345454E205749544820414C4546204D414B535552412049534F4C4154454420464F524D20),
  (0xFCFC, 0x415241424943204C49474154555245205345454E2057495448205945482049534F4C4154454420464F524D20),
  (0xFCFD, 0x415241424943204C4947415455524520534845454E205749544820414C4546204D414B535552412049534F4C4154454420464F524D20),
  (0xFCFE, 0x415241424943204C4947415455524520534845454E2057495448205945482049534F4C4154454420464F524D20),
  (0xFCFF, 0x415241424943204C4947415455524520484148205749544820414C4546204D414B535552412049534F4C4154454420464F524D20),
  (0xFD00, 0x415241424943204C49474154555245204841482057495448205945482049534F4C4154454420464F524D20),
  (0xFD01, 0x415241424943204C49474154555245204A45454D205749544820414C4546204D414B535552412049534F4C4154454420464F524D20),
  (0xFD02, 0x415241424943204C49474154555245204A45454D2057495448205945482049534F4C4154454420464F524D20),
  (0xFD03, 0x415241424943204C49474154555245204B484148205749544820414C4546204D414B535552412049534F4C4154454420464F524D20),
  (0xFD04, 0x415241424943204C49474154555245204B4841482057495448205945482049534F4C4154454420464F524D20),
  (0xFD05, 0x415241424943204C4947415455524520534144205749544820414C4546204D414B535552412049534F4C4154454420464F524D20),
  (0xFD06, 0x415241424943204C49474154555245205341442057495448205945482049534F4C4154454420464F524D20),
  (0xFD07, 0x415241424943204C4947415455524520444144205749544820414C4546204D414B535552412049534F4C4154454420464F524D20),
  (0xFD08, 0x415241424943204C49474154555245204441442057495448205945482049534F4C4154454420464F524D20),
  (0xFD09, 0x415241424943204C4947415455524520534845454E2057495448204A45454D2049534F4C4154454420464F524D20),
  (0xFD0A, 0x415241424943204C4947415455524520534845454E2057495448204841482049534F4C4154454420464F524D20),
  (0xFD0B, 0x415241424943204C4947415455524520534845454E2057495448204B4841482049534F4C4154454420464F524D20),
  (0xFD0C, 0x415241424943204C4947415455524520534845454E2057495448204D45454D2049534F4C4154454420464F524D20),
  (0xFD0D, 0x415241424943204C4947415455524520534845454E2057495448205245482049534F4C4154454420464F524D20),
  (0xFD0E, 0x415241424943204C49474154555245205345454E2057495448205245482049534F4C4154454420464F524D20),
  (0xFD0F, 0x415241424943204C49474154555245205341442057495448205245482049534F4C4154454420464F524D20),
  (0xFD10, 0x415241424943204C49474154555245204441442057495448205245482049534F4C4154454420464F524D20),
  (0xFD11, 0x415241424943204C4947415455524520544148205749544820414C4546204D414B535552412046494E414C20464F524D20),
  (0xFD12, 0x415241424943204C49474154555245205441482057495448205945482046494E414C20464F524D20),
  (0xFD13, 0x415241424943204C494741545552452041494E205749544820414C4546204D414B535552412046494E414C20464F524D20),
  (0xFD14, 0x415241424943204C494741545552452041494E2057495448205945482046494E414C20464F524D20),
  (0xFD15, 0x415241424943204C4947415455524520474841494E205749544820414C4546204D414B535552412046494E414C20464F524D20),
  (0xFD16, 0x415241424943204C4947415455524520474841494E2057495448205945482046494E414C20464F524D20),
  (0xFD17, 0x415241424943204C49474154555245205345454E205749544820414C4546204D414B535552412046494E414C20464F524D20),
  (0xFD18, 0x415241424943204C49474154555245205345454E2057495448205945482046494E414C20464F524D20),
  (0xFD19, 0x415241424943204C4947415455524520534845454E205749544820414C4546204D414B535552412046494E414C20464F524D20),
  (0xFD1A, 0x415241424943204C4947415455524520534845454E2057495448205945482046494E414C20464F524D20),
  (0xFD1B, 0x415241424943204C4947415455524520484148205749544820414C4546204D414B535552412046494E414C20464F524D20),
  (0xFD1C, 0x415241424943204C49474154555245204841482057495448205945482046494E414C20464F524D20),
  (0xFD1D, 0x415241424943204C49474154555245204A45454D205749544820414C4546204D414B535552412046494E414C20464F524D20),
  (0xFD1E, 0x415241424943204C49474154555245204A45454D2057495448205945482046494E414C20464F524D20),
  (0xFD1F, 0x415241424943204C49474154555245204B484148205749544820414C4546204D414B535552412046494E414C20464F524D20),
  (0xFD20, 0x415241424943204C49474154555245204B4841482057495448205945482046494E414C20464F524D20),
  (0xFD21, 0x415241424943204C4947415455524520534144205749544820414C4546204D414B535552412046494E414C20464F524D20),
  (0xFD22, 0x415241424943204C49474154555245205341442057495448205945482046494E414C20464F524D20)]
def names_248 : List (Nat × Nat) := [
  (0xFD23, 0x415241424943204C4947415455524520444144205749544820414C4546204D414B535552412046494E414C20464F524D20),
  (0xFD24, 0x415241424943204C49474154555245204441442057495448205945482046494E414C20464F524D20),
  (0xFD25, 0x415241424943204C4947415455524520534845454E2057495448204A45454D2046494E414C20464F524D20),
  (0xFD26, 0x415241424943204C4947415455524520534845454E2057495448204841482046494E414C20464F524D20),
  (0xFD27, 0x415241424943204C4947415455524520534845454E2057495448204B4841482046494E414C20464F524D20),
  (0xFD28, 0x415241424943204C4947415455524520534845454E2057495448204D45454D2046494E414C20464F524D20),
  (0xFD29, 0x415241424943204C4947415455524520534845454E2057495448205245482046494E414C20464F524D20),
  (0xFD2A, 0x415241424943204C49474154555245205345454E2057495448205245482046494E414C20464F524D20),
  (0xFD2B, 0x415241424943204C49474154555245205341442057495448205245482046494E414C20464F524D20),
  (0xFD2C, 0x415241424943204C49474154555245204441442057495448205245482046494E414C20464F524D20),
  (0xFD2D, 0x415241424943204C4947415455524520534845454E2057495448204A45454D20494E495449414C20464F524D20),
  (0xFD2E, 0x415241424943204C4947415455524520534845454E20574954482048414820494E495449414C20464F524D20),
  (0xFD2F, 0x415241424943204C4947415455524520534845454E2057495448204B48414820494E495449414C20464F524D20),
  (0xFD30, 0x415241424943204C4947415455524520534845454E2057495448204D45454D20494E495449414C20464F524D20),
  (0xFD31, 0x415241424943204C49474154555245205345454E20574954482048454820494E495449414C20464F524D20),
  (0xFD32, 0x415241424943204C4947415455524520534845454E20574954482048454820494E495449414C20464F524D20),
  (0xFD33, 0x415241424943204C49474154555245205441482057495448204D45454D20494E495449414C20464F524D20),
  (0xFD34, 0x415241424943204C49474154555245205345454E2057495448204A45454D204D454449414C20464F524D20),
  (0xFD35, 0x415241424943204C49474154555245205345454E205749544820484148204D454449414C20464F524D20),
  (0xFD36, 0x415241424943204C49474154555245205345454E2057495448204B484148204D454449414C20464F524D20),
  (0xFD37, 0x415241424943204C4947415455524520534845454E2057495448204A45454D204D454449414C20464F524D20),
  (0xFD38, 0x415241424943204C4947415455524520534845454E205749544820484148204D454449414C20464F524D20),
  (0xFD39, 0x415241424943204C4947415455524520534845454E2057495448204B484148204D454449414C20464F524D20),
  (0xFD3A, 0x415241424943204C49474154555245205441482057495448204D45454D204D454449414C20464F524D20),
  (0xFD3B, 0x415241424943204C49474154555245205A41482057495448204D45454D204D454449414C20464F524D20),
  (0xFD3C, 0x415241424943204C4947415455524520414C4546205749544820464154484154414E2046494E414C20464F524D20),
  (0xFD3D, 0x415241424943204C4947415455524520414C4546205749544820464154484154414E2049534F4C4154454420464F524D20),
  (0xFD3E, 0x4F524E415445204C45465420504152454E54484553495320),
  (0xFD3F, 0x4F524E41544520524947485420504152454E54484553495320),
  (0xFD50, 0x415241424943204C49474154555245205445482057495448204A45454D2057495448204D45454D20494E495449414C20464F524D20),
  (0xFD51, 0x415241424943204C49474154555245205445482057495448204841482057495448204A45454D2046494E414C20464F524D20),
  (0xFD52, 0x415241424943204C49474154555245205445482057495448204841482057495448204A45454D20494E495449414C20464F524D20),
  (0xFD53, 0x415241424943204C49474154555245205445482057495448204841482057495448204D45454D20494E495449414C20464F524D20),
  (0xFD54, 0x415241424943204C49474154555245205445482057495448204B4841482057495448204D45454D20494E495449414C20464F524D20),
  (0xFD55, 0x415241424943204C49474154555245205445482057495448204D45454D2057495448204A45454D20494E495449414C20464F524D20),
  (0xFD56, 0x415241424943204C49474154555245205445482057495448204D45454D20574954482048414820494E495449414C20464F524D20),
  (0xFD57, 0x415241424943204C49474154555245205445482057495448204D45454D2057495448204B48414820494E495449414C20464F524D20),
  (0xFD58, 0x415241424943204C49474154555245204A45454D2057495448204D45454D2057495448204841482046494E414C20464F524D20),
  (0xFD59, 0x415241424943204C49474154555245204A45454D2057495448204D45454D20574954482048414820494E495449414C20464F524D20),
  (0xFD5A, 0x415241424943204C49474154555245204841482057495448204D45454D2057495448205945482046494E414C20464F524D20),
  (0xFD5B, 0x415241424943204C49474154555245204841482057495448204D45454D205749544820414C4546204D414B535552412046494E414C20464F524D20),
  (0xFD5C, 0x415241424943204C49474154555245205345454E2057495448204841482057495448204A45454D20494E495449414C20464F524D20),
  (0xFD5D, 0x415241424943204C49474154555245205345454E2057495448204A45454D20574954482048414820494E495449414C20464F524D20),
  (0xFD5E, 0x415241424943204C49474154555245205345454E2057495448204A45454D205749544820414C4546204D414B535552412046494E414C20464F524D20),
  (0xFD5F, 0x415241424943204C49474154555245205345454E2057495448204D45454D2057495448204841482046494E414C20464F524D20),
  (0xFD60, 0x415241424943204C49474154555245205345454E2057495448204D45454D20574954482048414820494E495449414C20464F524D20),
  (0xFD61, 0x415241424943204C49474154555245205345454E2057495448204D45454D2057495448204A45454D20494E495449414C20464F524D20),
  (0xFD62, 0x415241424943204C49474154555245205345454E2057495448204D45454D2057495448204D45454D2046494E414C20464F524D20),
  (0xFD63, 0x415241424943204C49474154555245205345454E2057495448204D45454D2057495448204D45454D20494E495449414C20464F524D20),
  (0xFD64, 0x415241424943204C49474154555245205341442057495448204841482057495448204841482046494E414C20464F524D20),
  (0xFD65, 0x415241424943204C494741545552452053414420574954482048414820574954482048414820494E495449414C20464F524D20),
  (0xFD66, 0x415241424943204C49474154555245205341442057495448204D45454D2057495448204D45454D2046494E414C20464F524D20),
  (0xFD67, 0x415241424943204C4947415455524520534845454E2057495448204841482057495448204D45454D2046494E414C20464F524D20),
  (0xFD68, 0x415241424943204C4947415455524520534845454E2057495448204841482057495448204D45454D20494E495449414C20464F524D20),
  (0xFD69, 0x415241424943204C4947415455524520534845454E2057495448204A45454D2057495448205945482046494E414C20464F524D20),
  (0xFD6A, 0x415241424943204C4947415455524520534845454E2057495448204D45454D2057495448204B4841482046494E414C20464F524D20),
  (0xFD6B, 0x415241424943204C4947415455524520534845454E2057495448204D45454D2057495448204B48414820494E495449414C20464F524D20),
  (0xFD6C, 0x415241424943204C4947415455524520534845454E2057495448204D45454D2057495448204D45454D2046494E414C20464F524D20),
  (0xFD6D, 0x415241424943204C4947415455524520534845454E2057495448204D45454D2057495448204D45454D20494E495449414C20464F524D20),
  (0xFD6E, 0x415241424943204C4947415455524520444144205749544820484148205749544820414C4546204D414B535552412046494E414C20464F524D20),
  (0xFD6F, 0x415241424943204C49474154555245204441442057495448204B4841482057495448204D45454D2046494E414C20464F524D20),
  (0xFD70, 0x415241424943204C49474154555245204441442057495448204B4841482057495448204D45454D20494E495449414C20464F524D20),
  (0xFD71, 0x415241424943204C49474154555245205441482057495448204D45454D2057495448204841482046494E414C20464F524D20),
  (0xFD72, 0x415241424943204C49474154555245205441482057495448204D45454D20574954482048414820494E495449414C20464F524D20)]
def names_249 : List (Nat × Nat) := [
  (0xFD73, 0x415241424943204C49474154555245205441482057495448204D45454D2057495448204D45454D20494E495449414C20464F524D20),
  (0xFD74, 0x415241424943204C49474154555245205441482057495448204D45454D2057495448205945482046494E414C20464F524D20),
  (0xFD75, 0x415241424943204C494741545552452041494E2057495448204A45454D2057495448204D45454D2046494E414C20464F524D20),
  (0xFD76, 0x415241424943204C494741545552452041494E2057495448204D45454D2057495448204D45454D2046494E414C20464F524D20),
  (0xFD77, 0x415241424943204C494741545552452041494E2057495448204D45454D2057495448204D45454D20494E495449414C20464F524D20),
  (0xFD78, 0x415241424943204C494741545552452041494E2057495448204D45454D205749544820414C4546204D414B535552412046494E414C20464F524D20),
  (0xFD79, 0x415241424943204C4947415455524520474841494E2057495448204D45454D2057495448204D45454D2046494E414C20464F524D20),
  (0xFD7A, 0x415241424943204C4947415455524520474841494E2057495448204D45454D2057495448205945482046494E414C20464F524D20),
  (0xFD7B, 0x415241424943204C4947415455524520474841494E2057495448204D45454D205749544820414C4546204D414B535552412046494E414C20464F524D20),
  (0xFD7C, 0x415241424943204C49474154555245204645482057495448204B4841482057495448204D45454D2046494E414C20464F524D20),
  (0xFD7D, 0x415241424943204C49474154555245204645482057495448204B4841482057495448204D45454D20494E495449414C20464F524D20),
  (0xFD7E, 0x415241424943204C49474154555245205141462057495448204D45454D2057495448204841482046494E414C20464F524D20),
  (0xFD7F, 0x415241424943204C49474154555245205141462057495448204D45454D2057495448204D45454D2046494E414C20464F524D20),
  (0xFD80, 0x415241424943204C49474154555245204C414D2057495448204841482057495448204D45454D2046494E414C20464F524D20),
  (0xFD81, 0x415241424943204C49474154555245204C414D2057495448204841482057495448205945482046494E414C20464F524D20),
  (0xFD82, 0x415241424943204C49474154555245204C414D205749544820484148205749544820414C4546204D414B535552412046494E414C20464F524D20),
  (0xFD83, 0x415241424943204C49474154555245204C414D2057495448204A45454D2057495448204A45454D20494E495449414C20464F524D20),
  (0xFD84, 0x415241424943204C49474154555245204C414D2057495448204A45454D2057495448204A45454D2046494E414C20464F524D20),
  (0xFD85, 0x415241424943204C49474154555245204C414D2057495448204B4841482057495448204D45454D2046494E414C20464F524D20),
  (0xFD86, 0x415241424943204C49474154555245204C414D2057495448204B4841482057495448204D45454D20494E495449414C20464F524D20),
  (0xFD87, 0x415241424943204C49474154555245204C414D2057495448204D45454D2057495448204841482046494E414C20464F524D20),
  (0xFD88, 0x415241424943204C49474154555245204C414D2057495448204D45454D20574954482048414820494E495449414C20464F524D20),
  (0xFD89, 0x415241424943204C49474154555245204D45454D2057495448204841482057495448204A45454D20494E495449414C20464F524D20),
  (0xFD8A, 0x415241424943204C49474154555245204D45454D2057495448204841482057495448204D45454D20494E495449414C20464F524D20),
  (0xFD8B, 0x415241424943204C49474154555245204D45454D2057495448204841482057495448205945482046494E414C20464F524D20),
  (0xFD8C, 0x415241424943204C49474154555245204D45454D2057495448204A45454D20574954482048414820494E495449414C20464F524D20),
  (0xFD8D, 0x415241424943204C49474154555245204D45454D2057495448204A45454D2057495448204D45454D20494E495449414C20464F524D20),
  (0xFD8E, 0x415241424943204C49474154555245204D45454D2057495448204B4841482057495448204A45454D20494E495449414C20464F524D20),
  (0xFD8F, 0x415241424943204C49474154555245204D45454D2057495448204B4841482057495448204D45454D20494E495449414C20464F524D20),
  (0xFD92, 0x415241424943204C49474154555245204D45454D2057495448204A45454D2057495448204B48414820494E495449414C20464F524D20),
  (0xFD93, 0x415241424943204C49474154555245204845482057495448204D45454D2057495448204A45454D20494E495449414C20464F524D20),
  (0xFD94, 0x415241424943204C49474154555245204845482057495448204D45454D2057495448204D45454D20494E495449414C20464F524D20),
  (0xFD95, 0x415241424943204C49474154555245204E4F4F4E2057495448204841482057495448204D45454D20494E495449414C20464F524D20),
  (0xFD96, 0x415241424943204C49474154555245204E4F4F4E205749544820484148205749544820414C4546204D414B535552412046494E414C20464F524D20),
  (0xFD97, 0x415241424943204C49474154555245204E4F4F4E2057495448204A45454D2057495448204D45454D2046494E414C20464F524D20),
  (0xFD98, 0x415241424943204C49474154555245204E4F4F4E2057495448204A45454D2057495448204D45454D20494E495449414C20464F524D20),
  (0xFD99, 0x415241424943204C49474154555245204E4F4F4E2057495448204A45454D205749544820414C4546204D414B535552412046494E414C20464F524D20),
  (0xFD9A, 0x415241424943204C49474154555245204E4F4F4E2057495448204D45454D2057495448205945482046494E414C20464F524D20),
  (0xFD9B, 0x415241424943204C49474154555245204E4F4F4E2057495448204D45454D205749544820414C4546204D414B535552412046494E414C20464F524D20),
  (0xFD9C, 0x415241424943204C49474154555245205945482057495448204D45454D2057495448204D45454D2046494E414C20464F524D20),
  (0xFD9D, 0x415241424943204C49474154555245205945482057495448204D45454D2057495448204D45454D20494E495449414C20464F524D20),
  (0xFD9E, 0x415241424943204C49474154555245204245482057495448204B4841482057495448205945482046494E414C20464F524D20),
  (0xFD9F, 0x415241424943204C49474154555245205445482057495448204A45454D2057495448205945482046494E414C20464F524D20),
  (0xFDA0, 0x415241424943204C49474154555245205445482057495448204A45454D205749544820414C4546204D414B535552412046494E414C20464F524D20),
  (0xFDA1, 0x415241424943204C49474154555245205445482057495448204B4841482057495448205945482046494E414C20464F524D20),
  (0xFDA2, 0x415241424943204C49474154555245205445482057495448204B484148205749544820414C4546204D414B535552412046494E414C20464F524D20),
  (0xFDA3, 0x415241424943204C49474154555245205445482057495448204D45454D2057495448205945482046494E414C20464F524D20),
  (0xFDA4, 0x415241424943204C49474154555245205445482057495448204D45454D205749544820414C4546204D414B535552412046494E414C20464F524D20),
  (0xFDA5, 0x415241424943204C49474154555245204A45454D2057495448204D45454D2057495448205945482046494E414C20464F524D20),
  (0xFDA6, 0x415241424943204C49474154555245204A45454D205749544820484148205749544820414C4546204D414B535552412046494E414C20464F524D20),
  (0xFDA7, 0x415241424943204C49474154555245204A45454D2057495448204D45454D205749544820414C4546204D414B535552412046494E414C20464F524D20),
  (0xFDA8, 0x415241424943204C49474154555245205345454E2057495448204B484148205749544820414C4546204D414B535552412046494E414C20464F524D20),
  (0xFDA9, 0x415241424943204C49474154555245205341442057495448204841482057495448205945482046494E414C20464F524D20),
  (0xFDAA, 0x415241424943204C4947415455524520534845454E2057495448204841482057495448205945482046494E414C20464F524D20),
  (0xFDAB, 0x415241424943204C49474154555245204441442057495448204841482057495448205945482046494E414C20464F524D20),
  (0xFDAC, 0x415241424943204C49474154555245204C414D2057495448204A45454D2057495448205945482046494E414C20464F524D20),
  (0xFDAD, 0x415241424943204C49474154555245204C414D2057495448204D45454D2057495448205945482046494E414C20464F524D20),
  (0xFDAE, 0x415241424943204C49474154555245205945482057495448204841482057495448205945482046494E414C20464F524D20),
  (0xFDAF, 0x415241424943204C49474154555245205945482057495448204A45454D2057495448205945482046494E414C20464F524D20),
  (0xFDB0, 0x415241424943204C49474154555245205945482057495448204D45454D2057495448205945482046494E414C20464F524D20),
  (0xFDB1, 0x415241424943204C49474154555245204D45454D2057495448204D45454D2057495448205945482046494E414C20464F524D20),
  (0xFDB2, 0x415241424943204C49474154555245205141462057495448204D45454D2057495448205945482046494E414C20464F524D20),
  (0xFDB3, 0x415241424943204C49474154555245204E4F4F4E2057495448204841482057495448205945482046494E414C20464F524D20),
  (0xFDB4, 0x415241424943204C49474154555245205141462057495448204D45454D20574954482048414820494E495449414C20464F524D20)]
def names_250 : List (Nat × Nat) := [
  (0xFDB5, 0x415241424943204C49474154555245204C414D2057495448204841482057495448204D45454D20494E495449414C20464F524D20),
  (0xFDB6, 0x415241424943204C494741545552452041494E2057495448204D45454D2057495448205945482046494E414C20464F524D20),
  (0xFDB7, 0x415241424943204C49474154555245204B41462057495448204D45454D2057495448205945482046494E414C20464F524D20),
  (0xFDB8, 0x415241424943204C49474154555245204E4F4F4E2057495448204A45454D20574954482048414820494E495449414C20464F524D20),
  (0xFDB9, 0x415241424943204C49474154555245204D45454D2057495448204B4841482057495448205945482046494E414C20464F524D20),
  (0xFDBA, 0x415241424943204C49474154555245204C414D2057495448204A45454D2057495448204D45454D20494E495449414C20464F524D20),
  (0xFDBB, 0x415241424943204C49474154555245204B41462057495448204D45454D2057495448204D45454D2046494E414C20464F524D20),
  (0xFDBC, 0x415241424943204C49474154555245204C414D2057495448204A45454D2057495448204D45454D2046494E414C20464F524D20),
  (0xFDBD, 0x415241424943204C49474154555245204E4F4F4E2057495448204A45454D2057495448204841482046494E414C20464F524D20),
  (0xFDBE, 0x415241424943204C49474154555245204A45454D2057495448204841482057495448205945482046494E414C20464F524D20),
  (0xFDBF, 0x415241424943204C49474154555245204841482057495448204A45454D2057495448205945482046494E414C20464F524D20),
  (0xFDC0, 0x415241424943204C49474154555245204D45454D2057495448204A45454D2057495448205945482046494E414C20464F524D20),
  (0xFDC1, 0x415241424943204C49474154555245204645482057495448204D45454D2057495448205945482046494E414C20464F524D20),
  (0xFDC2, 0x415241424943204C49474154555245204245482057495448204841482057495448205945482046494E414C20464F524D20),
  (0xFDC3, 0x415241424943204C49474154555245204B41462057495448204D45454D2057495448204D45454D20494E495449414C20464F524D20),
  (0xFDC4, 0x415241424943204C494741545552452041494E2057495448204A45454D2057495448204D45454D20494E495449414C20464F524D20),
  (0xFDC5, 0x415241424943204C49474154555245205341442057495448204D45454D2057495448204D45454D20494E495449414C20464F524D20),
  (0xFDC6, 0x415241424943204C49474154555245205345454E2057495448204B4841482057495448205945482046494E414C20464F524D20),
  (0xFDC7, 0x415241424943204C49474154555245204E4F4F4E2057495448204A45454D2057495448205945482046494E414C20464F524D20),
  (0xFDF0, 0x415241424943204C494741545552452053414C4C412055534544204153204B4F52414E49432053544F50205349474E2049534F4C4154454420464F524D20),
  (0xFDF1, 0x415241424943204C494741545552452051414C412055534544204153204B4F52414E49432053544F50205349474E2049534F4C4154454420464F524D20),
  (0xFDF2, 0x415241424943204C4947415455524520414C4C41482049534F4C4154454420464F524D20),
  (0xFDF3, 0x415241424943204C4947415455524520414B4241522049534F4C4154454420464F524D20),
  (0xFDF4, 0x415241424943204C49474154555245204D4F48414D4D41442049534F4C4154454420464F524D20),
  (0xFDF5, 0x415241424943204C494741545552452053414C414D2049534F4C4154454420464F524D20),
  (0xFDF6, 0x415241424943204C49474154555245205241534F554C2049534F4C4154454420464F524D20),
  (0xFDF7, 0x415241424943204C4947415455524520414C415948452049534F4C4154454420464F524D20),
  (0xFDF8, 0x415241424943204C4947415455524520574153414C4C414D2049534F4C4154454420464F524D20),
  (0xFDF9, 0x415241424943204C494741545552452053414C4C412049534F4C4154454420464F524D20),
  (0xFDFA, 0x415241424943204C494741545552452053414C4C414C4C41484F5520414C4159484520574153414C4C414D20),
  (0xFDFB, 0x415241424943204C49474154555245204A414C4C414A414C414C4F55484F5520),
  (0xFDFC, 0x5249414C205349474E20),
  (0xFDFD, 0x415241424943204C49474154555245204249534D494C4C41482041522D5241484D414E2041522D52414845454D20),
  (0xFE00, 0x564152494154494F4E2053454C4543544F522D3120),
  (0xFE01, 0x564152494154494F4E2053454C4543544F522D3220),
  (0xFE02, 0x564152494154494F4E2053454C4543544F522D3320),
  (0xFE03, 0x564152494154494F4E2053454C4543544F522D3420),
  (0xFE04, 0x564152494154494F4E2053454C4543544F522D3520),
  (0xFE05, 0x564152494154494F4E2053454C4543544F522D3620),
  (0xFE06, 0x564152494154494F4E2053454C4543544F522D3720),
  (0xFE07, 0x564152494154494F4E2053454C4543544F522D3820),
  (0xFE08, 0x564152494154494F4E2053454C4543544F522D3920),
  (0xFE09, 0x564152494154494F4E2053454C4543544F522D313020),
  (0xFE0A, 0x564152494154494F4E2053454C4543544F522D313120),
  (0xFE0B, 0x564152494154494F4E2053454C4543544F522D313220),
  (0xFE0C, 0x564152494154494F4E2053454C4543544F522D313320),
  (0xFE0D, 0x564152494154494F4E2053454C4543544F522D313420),
  (0xFE0E, 0x564152494154494F4E2053454C4543544F522D313520),
  (0xFE0F, 0x564152494154494F4E2053454C4543544F522D313620),
  (0xFE10, 0x50524553454E544154494F4E20464F524D20464F5220564552544943414C20434F4D4D4120),
  (0xFE11, 0x50524553454E544154494F4E20464F524D20464F5220564552544943414C204944454F4752415048494320434F4D4D4120),
  (0xFE12, 0x50524553454E544154494F4E20464F524D20464F5220564552544943414C204944454F475241504849432046554C4C2053544F5020),
  (0xFE13, 0x50524553454E544154494F4E20464F524D20464F5220564552544943414C20434F4C4F4E20),
  (0xFE14, 0x50524553454E544154494F4E20464F524D20464F5220564552544943414C2053454D49434F4C4F4E20),
  (0xFE15, 0x50524553454E544154494F4E20464F524D20464F5220564552544943414C204558434C414D4154494F4E204D41524B20),
  (0xFE16, 0x50524553454E544154494F4E20464F524D20464F5220564552544943414C205155455354494F4E204D41524B20),
  (0xFE17, 0x50524553454E544154494F4E20464F524D20464F5220564552544943414C204C454654205748495445204C454E544943554C415220425241434B455420),
  (0xFE18, 0x50524553454E544154494F4E20464F524D20464F5220564552544943414C205249474854205748495445204C454E544943554C4152204252414B43455420),
  (0xFE19, 0x50524553454E544154494F4E20464F524D20464F5220564552544943414C20484F52495A4F4E54414C20454C4C495053495320),
  (0xFE20, 0x434F4D42494E494E47204C49474154555245204C4546542048414C4620),
  (0xFE21, 0x434F4D42494E494E47204C494741545552452052494748542048414C4620),
  (0xFE22, 0x434F4D42494E494E4720444F55424C452054494C4445204C4546542048414C4620),
  (0xFE23, 0x434F4D42494E494E4720444F55424C452054494C44452052494748542048414C4620),
  (0xFE24, 0x434F4D42494E494E47204D4143524F4E204C4546542048414C4620)]
def names_251 : List (Nat × Nat) := [
  (0xFE25, 0x434F4D42494E494E47204D4143524F4E2052494748542048414C4620),
  (0xFE26, 0x434F4D42494E494E4720434F4E4A4F494E494E47204D4143524F4E20),
  (0xFE27, 0x434F4D42494E494E47204C49474154555245204C4546542048414C462042454C4F5720),
  (0xFE28, 0x434F4D42494E494E47204C494741545552452052494748542048414C462042454C4F5720),
  (0xFE29, 0x434F4D42494E494E472054494C4445204C4546542048414C462042454C4F5720),
  (0xFE2A, 0x434F4D42494E494E472054494C44452052494748542048414C462042454C4F5720),
  (0xFE2B, 0x434F4D42494E494E47204D4143524F4E204C4546542048414C462042454C4F5720),
  (0xFE2C, 0x434F4D42494E494E47204D4143524F4E2052494748542048414C462042454C4F5720),
  (0xFE2D, 0x434F4D42494E494E4720434F4E4A4F494E494E47204D4143524F4E2042454C4F5720),
  (0xFE2E, 0x434F4D42494E494E4720435952494C4C4943205449544C4F204C4546542048414C4620),
  (0xFE2F, 0x434F4D42494E494E4720435952494C4C4943205449544C4F2052494748542048414C4620),
  (0xFE30, 0x50524553454E544154494F4E20464F524D20464F5220564552544943414C2054574F20444F54204C454144455220),
  (0xFE31, 0x50524553454E544154494F4E20464F524D20464F5220564552544943414C20454D204441534820),
  (0xFE32, 0x50524553454E544154494F4E20464F524D20464F5220564552544943414C20454E204441534820),
  (0xFE33, 0x50524553454E544154494F4E20464F524D20464F5220564552544943414C204C4F57204C494E4520),
  (0xFE34, 0x50524553454E544154494F4E20464F524D20464F5220564552544943414C2057415659204C4F57204C494E4520),
  (0xFE35, 0x50524553454E544154494F4E20464F524D20464F5220564552544943414C204C45465420504152454E54484553495320),
  (0xFE36, 0x50524553454E544154494F4E20464F524D20464F5220564552544943414C20524947485420504152454E54484553495320),
  (0xFE37, 0x50524553454E544154494F4E20464F524D20464F5220564552544943414C204C454654204355524C5920425241434B455420),
  (0xFE38, 0x50524553454E544154494F4E20464F524D20464F5220564552544943414C205249474854204355524C5920425241434B455420),
  (0xFE39, 0x50524553454E544154494F4E20464F524D20464F5220564552544943414C204C45465420544F52544F495345205348454C4C20425241434B455420),
  (0xFE3A, 0x50524553454E544154494F4E20464F524D20464F5220564552544943414C20524947485420544F52544F495345205348454C4C20425241434B455420),
  (0xFE3B, 0x50524553454E544154494F4E20464F524D20464F5220564552544943414C204C45465420424C41434B204C454E544943554C415220425241434B455420),
  (0xFE3C, 0x50524553454E544154494F4E20464F524D20464F5220564552544943414C20524947485420424C41434B204C454E544943554C415220425241434B455420),
  (0xFE3D, 0x50524553454E544154494F4E20464F524D20464F5220564552544943414C204C45465420444F55424C4520414E474C4520425241434B455420),
  (0xFE3E, 0x50524553454E544154494F4E20464F524D20464F5220564552544943414C20524947485420444F55424C4520414E474C4520425241434B455420),
  (0xFE3F, 0x50524553454E544154494F4E20464F524D20464F5220564552544943414C204C45465420414E474C4520425241434B455420),
  (0xFE40, 0x50524553454E544154494F4E20464F524D20464F5220564552544943414C20524947485420414E474C4520425241434B455420),
  (0xFE41, 0x50524553454E544154494F4E20464F524D20464F5220564552544943414C204C45465420434F524E455220425241434B455420),
  (0xFE42, 0x50524553454E544154494F4E20464F524D20464F5220564552544943414C20524947485420434F524E455220425241434B455420),
  (0xFE43, 0x50524553454E544154494F4E20464F524D20464F5220564552544943414C204C45465420574849544520434F524E455220425241434B455420),
  (0xFE44, 0x50524553454E544154494F4E20464F524D20464F5220564552544943414C20524947485420574849544520434F524E455220425241434B455420),
  (0xFE45, 0x534553414D4520444F5420),
  (0xFE46, 0x574849544520534553414D4520444F5420),
  (0xFE47, 0x50524553454E544154494F4E20464F524D20464F5220564552544943414C204C4546542053515541524520425241434B455420),
  (0xFE48, 0x50524553454E544154494F4E20464F524D20464F5220564552544943414C2052494748542053515541524520425241434B455420),
  (0xFE49, 0x444153484544204F5645524C494E4520),
  (0xFE4A, 0x43454E5452454C494E45204F5645524C494E4520),
  (0xFE4B, 0x57415659204F5645524C494E4520),
  (0xFE4C, 0x444F55424C452057415659204F5645524C494E4520),
  (0xFE4D, 0x444153484544204C4F57204C494E4520),
  (0xFE4E, 0x43454E5452454C494E45204C4F57204C494E4520),
  (0xFE4F, 0x57415659204C4F57204C494E4520),
  (0xFE50, 0x534D414C4C20434F4D4D4120),
  (0xFE51, 0x534D414C4C204944454F4752415048494320434F4D4D4120),
  (0xFE52, 0x534D414C4C2046554C4C2053544F5020),
  (0xFE54, 0x534D414C4C2053454D49434F4C4F4E20),
  (0xFE55, 0x534D414C4C20434F4C4F4E20),
  (0xFE56, 0x534D414C4C205155455354494F4E204D41524B20),
  (0xFE57, 0x534D414C4C204558434C414D4154494F4E204D41524B20),
  (0xFE58, 0x534D414C4C20454D204441534820),
  (0xFE59, 0x534D414C4C204C45465420504152454E54484553495320),
  (0xFE5A, 0x534D414C4C20524947485420504152454E54484553495320),
  (0xFE5B, 0x534D414C4C204C454654204355524C5920425241434B455420),
  (0xFE5C, 0x534D414C4C205249474854204355524C5920425241434B455420),
  (0xFE5D, 0x534D414C4C204C45465420544F52544F495345205348454C4C20425241434B455420),
  (0xFE5E, 0x534D414C4C20524947485420544F52544F495345205348454C4C20425241434B455420),
  (0xFE5F, 0x534D414C4C204E554D424552205349474E20),
  (0xFE60, 0x534D414C4C20414D50455253414E4420),
  (0xFE61, 0x534D414C4C20415354455249534B20),
  (0xFE62, 0x534D414C4C20504C5553205349474E20),
  (0xFE63, 0x534D414C4C2048595048454E2D4D494E555320),
  (0xFE64, 0x534D414C4C204C4553532D5448414E205349474E20),
  (0xFE65, 0x534D414C4C20475245415445522D5448414E205349474E20)]
def names_252 : List (Nat × Nat) := [
  (0xFE66, 0x534D414C4C20455155414C53205349474E20),
  (0xFE68, 0x534D414C4C205245564552534520534F4C4944555320),
  (0xFE69, 0x534D414C4C20444F4C4C4152205349474E20),
  (0xFE6A, 0x534D414C4C2050455243454E54205349474E20),
  (0xFE6B, 0x534D414C4C20434F4D4D45524349414C20415420),
  (0xFE70, 0x41524142494320464154484154414E2049534F4C4154454420464F524D20),
  (0xFE71, 0x415241424943205441545745454C205749544820464154484154414E2041424F564520),
  (0xFE72, 0x4152414249432044414D4D4154414E2049534F4C4154454420464F524D20),
  (0xFE73, 0x415241424943205441494C20465241474D454E5420),
  (0xFE74, 0x415241424943204B4153524154414E2049534F4C4154454420464F524D20),
  (0xFE76, 0x4152414249432046415448412049534F4C4154454420464F524D20),
  (0xFE77, 0x415241424943204641544841204D454449414C20464F524D20),
  (0xFE78, 0x4152414249432044414D4D412049534F4C4154454420464F524D20),
  (0xFE79, 0x4152414249432044414D4D41204D454449414C20464F524D20),
  (0xFE7A, 0x415241424943204B415352412049534F4C4154454420464F524D20),
  (0xFE7B, 0x415241424943204B41535241204D454449414C20464F524D20),
  (0xFE7C, 0x415241424943205348414444412049534F4C4154454420464F524D20),
  (0xFE7D, 0x41524142494320534841444441204D454449414C20464F524D20),
  (0xFE7E, 0x4152414249432053554B554E2049534F4C4154454420464F524D20),
  (0xFE7F, 0x4152414249432053554B554E204D454449414C20464F524D20),
  (0xFE80, 0x415241424943204C45545445522048414D5A412049534F4C4154454420464F524D20),
  (0xFE81, 0x415241424943204C455454455220414C45462057495448204D414444412041424F56452049534F4C4154454420464F524D20),
  (0xFE82, 0x415241424943204C455454455220414C45462057495448204D414444412041424F56452046494E414C20464F524D20),
  (0xFE83, 0x415241424943204C455454455220414C454620574954482048414D5A412041424F56452049534F4C4154454420464F524D20),
  (0xFE84, 0x415241424943204C455454455220414C454620574954482048414D5A412041424F56452046494E414C20464F524D20),
  (0xFE85, 0x415241424943204C45545445522057415720574954482048414D5A412041424F56452049534F4C4154454420464F524D20),
  (0xFE86, 0x415241424943204C45545445522057415720574954482048414D5A412041424F56452046494E414C20464F524D20),
  (0xFE87, 0x415241424943204C455454455220414C454620574954482048414D5A412042454C4F572049534F4C4154454420464F524D20),
  (0xFE88, 0x415241424943204C455454455220414C454620574954482048414D5A412042454C4F572046494E414C20464F524D20),
  (0xFE89, 0x415241424943204C45545445522059454820574954482048414D5A412041424F56452049534F4C4154454420464F524D20),
  (0xFE8A, 0x415241424943204C45545445522059454820574954482048414D5A412041424F56452046494E414C20464F524D20),
  (0xFE8B, 0x415241424943204C45545445522059454820574954482048414D5A412041424F564520494E495449414C20464F524D20),
  (0xFE8C, 0x415241424943204C45545445522059454820574954482048414D5A412041424F5645204D454449414C20464F524D20),
  (0xFE8D, 0x415241424943204C455454455220414C45462049534F4C4154454420464F524D20),
  (0xFE8E, 0x415241424943204C455454455220414C45462046494E414C20464F524D20),
  (0xFE8F, 0x415241424943204C4554544552204245482049534F4C4154454420464F524D20),
  (0xFE90, 0x415241424943204C4554544552204245482046494E414C20464F524D20),
  (0xFE91, 0x415241424943204C45545445522042454820494E495449414C20464F524D20),
  (0xFE92, 0x415241424943204C455454455220424548204D454449414C20464F524D20),
  (0xFE93, 0x415241424943204C455454455220544548204D4152425554412049534F4C4154454420464F524D20),
  (0xFE94, 0x415241424943204C455454455220544548204D4152425554412046494E414C20464F524D20),
  (0xFE95, 0x415241424943204C4554544552205445482049534F4C4154454420464F524D20),
  (0xFE96, 0x415241424943204C4554544552205445482046494E414C20464F524D20),
  (0xFE97, 0x415241424943204C45545445522054454820494E495449414C20464F524D20),
  (0xFE98, 0x415241424943204C455454455220544548204D454449414C20464F524D20),
  (0xFE99, 0x415241424943204C455454455220544845482049534F4C4154454420464F524D20),
  (0xFE9A, 0x415241424943204C455454455220544845482046494E414C20464F524D20),
  (0xFE9B, 0x415241424943204C4554544552205448454820494E495449414C20464F524D20),
  (0xFE9C, 0x415241424943204C45545445522054484548204D454449414C20464F524D20),
  (0xFE9D, 0x415241424943204C4554544552204A45454D2049534F4C4154454420464F524D20),
  (0xFE9E, 0x415241424943204C4554544552204A45454D2046494E414C20464F524D20),
  (0xFE9F, 0x415241424943204C4554544552204A45454D20494E495449414C20464F524D20),
  (0xFEA0, 0x415241424943204C4554544552204A45454D204D454449414C20464F524D20),
  (0xFEA1, 0x415241424943204C4554544552204841482049534F4C4154454420464F524D20),
  (0xFEA2, 0x415241424943204C4554544552204841482046494E414C20464F524D20),
  (0xFEA3, 0x415241424943204C45545445522048414820494E495449414C20464F524D20),
  (0xFEA4, 0x415241424943204C455454455220484148204D454449414C20464F524D20),
  (0xFEA5, 0x415241424943204C4554544552204B4841482049534F4C4154454420464F524D20),
  (0xFEA6, 0x415241424943204C4554544552204B4841482046494E414C20464F524D20),
  (0xFEA7, 0x415241424943204C4554544552204B48414820494E495449414C20464F524D20),
  (0xFEA8, 0x415241424943204C4554544552204B484148204D454449414C20464F524D20),
  (0xFEA9, 0x415241424943204C45545445522044414C2049534F4C4154454420464F524D20),
  (0xFEAA, 0x415241424943204C45545445522044414C2046494E414C20464F524D20),
  (0xFEAB, 0x415241424943204C4554544552205448414C2049534F4C4154454420464F524D20)]
def names_253 : List (Nat × Nat) := [
  (0xFEAC, 0x415241424943204C4554544552205448414C2046494E414C20464F524D20),
  (0xFEAD, 0x415241424943204C4554544552205245482049534F4C4154454420464F524D20),
  (0xFEAE, 0x415241424943204C4554544552205245482046494E414C20464F524D20),
  (0xFEAF, 0x415241424943204C4554544552205A41494E2049534F4C4154454420464F524D20),
  (0xFEB0, 0x415241424943204C4554544552205A41494E2046494E414C20464F524D20),
  (0xFEB1, 0x415241424943204C4554544552205345454E2049534F4C4154454420464F524D20),
  (0xFEB2, 0x415241424943204C4554544552205345454E2046494E414C20464F524D20),
  (0xFEB3, 0x415241424943204C4554544552205345454E20494E495449414C20464F524D20),
  (0xFEB4, 0x415241424943204C4554544552205345454E204D454449414C20464F524D20),
  (0xFEB5, 0x415241424943204C455454455220534845454E2049534F4C4154454420464F524D20),
  (0xFEB6, 0x415241424943204C455454455220534845454E2046494E414C20464F524D20),
  (0xFEB7, 0x415241424943204C455454455220534845454E20494E495449414C20464F524D20),
  (0xFEB8, 0x415241424943204C455454455220534845454E204D454449414C20464F524D20),
  (0xFEB9, 0x415241424943204C4554544552205341442049534F4C4154454420464F524D20),
  (0xFEBA, 0x415241424943204C4554544552205341442046494E414C20464F524D20),
  (0xFEBB, 0x415241424943204C45545445522053414420494E495449414C20464F524D20),
  (0xFEBC, 0x415241424943204C455454455220534144204D454449414C20464F524D20),
  (0xFEBD, 0x415241424943204C4554544552204441442049534F4C4154454420464F524D20),
  (0xFEBE, 0x415241424943204C4554544552204441442046494E414C20464F524D20),
  (0xFEBF, 0x415241424943204C45545445522044414420494E495449414C20464F524D20),
  (0xFEC0, 0x415241424943204C455454455220444144204D454449414C20464F524D20),
  (0xFEC1, 0x415241424943204C4554544552205441482049534F4C4154454420464F524D20),
  (0xFEC2, 0x415241424943204C4554544552205441482046494E414C20464F524D20),
  (0xFEC3, 0x415241424943204C45545445522054414820494E495449414C20464F524D20),
  (0xFEC4, 0x415241424943204C455454455220544148204D454449414C20464F524D20),
  (0xFEC5, 0x415241424943204C4554544552205A41482049534F4C4154454420464F524D20),
  (0xFEC6, 0x415241424943204C4554544552205A41482046494E414C20464F524D20),
  (0xFEC7, 0x415241424943204C4554544552205A414820494E495449414C20464F524D20),
  (0xFEC8, 0x415241424943204C4554544552205A4148204D454449414C20464F524D20),
  (0xFEC9, 0x415241424943204C45545445522041494E2049534F4C4154454420464F524D20),
  (0xFECA, 0x415241424943204C45545445522041494E2046494E414C20464F524D20),
  (0xFECB, 0x415241424943204C45545445522041494E20494E495449414C20464F524D20),
  (0xFECC, 0x415241424943204C45545445522041494E204D454449414C20464F524D20),
  (0xFECD, 0x415241424943204C455454455220474841494E2049534F4C4154454420464F524D20),
  (0xFECE, 0x415241424943204C455454455220474841494E2046494E414C20464F524D20),
  (0xFECF, 0x415241424943204C455454455220474841494E20494E495449414C20464F524D20),
  (0xFED0, 0x415241424943204C455454455220474841494E204D454449414C20464F524D20),
  (0xFED1, 0x415241424943204C4554544552204645482049534F4C4154454420464F524D20),
  (0xFED2, 0x415241424943204C4554544552204645482046494E414C20464F524D20),
  (0xFED3, 0x415241424943204C45545445522046454820494E495449414C20464F524D20),
  (0xFED4, 0x415241424943204C455454455220464548204D454449414C20464F524D20),
  (0xFED5, 0x415241424943204C4554544552205141462049534F4C4154454420464F524D20),
  (0xFED6, 0x415241424943204C4554544552205141462046494E414C20464F524D20),
  (0xFED7, 0x415241424943204C45545445522051414620494E495449414C20464F524D20),
  (0xFED8, 0x415241424943204C455454455220514146204D454449414C20464F524D20),
  (0xFED9, 0x415241424943204C4554544552204B41462049534F4C4154454420464F524D20),
  (0xFEDA, 0x415241424943204C4554544552204B41462046494E414C20464F524D20),
  (0xFEDB, 0x415241424943204C4554544552204B414620494E495449414C20464F524D20),
  (0xFEDC, 0x415241424943204C4554544552204B4146204D454449414C20464F524D20),
  (0xFEDD, 0x415241424943204C4554544552204C414D2049534F4C4154454420464F524D20),
  (0xFEDE, 0x415241424943204C4554544552204C414D2046494E414C20464F524D20),
  (0xFEDF, 0x415241424943204C4554544552204C414D20494E495449414C20464F524D20),
  (0xFEE0, 0x415241424943204C4554544552204C414D204D454449414C20464F524D20),
  (0xFEE1, 0x415241424943204C4554544552204D45454D2049534F4C4154454420464F524D20),
  (0xFEE2, 0x415241424943204C4554544552204D45454D2046494E414C20464F524D20),
  (0xFEE3, 0x415241424943204C4554544552204D45454D20494E495449414C20464F524D20),
  (0xFEE4, 0x415241424943204C4554544552204D45454D204D454449414C20464F524D20),
  (0xFEE5, 0x415241424943204C4554544552204E4F4F4E2049534F4C4154454420464F524D20),
  (0xFEE6, 0x415241424943204C4554544552204E4F4F4E2046494E414C20464F524D20),
  (0xFEE7, 0x415241424943204C4554544552204E4F4F4E20494E495449414C20464F524D20),
  (0xFEE8, 0x415241424943204C4554544552204E4F4F4E204D454449414C20464F524D20),
  (0xFEE9, 0x415241424943204C4554544552204845482049534F4C4154454420464F524D20),
  (0xFEEA, 0x415241424943204C4554544552204845482046494E414C20464F524D20),
  (0xFEEB, 0x415241424943204C45545445522048454820494E495449414C20464F524D20)]
def names_254 : List (Nat × Nat) := [
  (0xFEEC, 0x415241424943204C455454455220484548204D454449414C20464F524D20),
  (0xFEED, 0x415241424943204C4554544552205741572049534F4C4154454420464F524D20),
  (0xFEEE, 0x415241424943204C4554544552205741572046494E414C20464F524D20),
  (0xFEEF, 0x415241424943204C455454455220414C4546204D414B535552412049534F4C4154454420464F524D20),
  (0xFEF0, 0x415241424943204C455454455220414C4546204D414B535552412046494E414C20464F524D20),
  (0xFEF1, 0x415241424943204C4554544552205945482049534F4C4154454420464F524D20),
  (0xFEF2, 0x415241424943204C4554544552205945482046494E414C20464F524D20),
  (0xFEF3, 0x415241424943204C45545445522059454820494E495449414C20464F524D20),
  (0xFEF4, 0x415241424943204C455454455220594548204D454449414C20464F524D20),
  (0xFEF5, 0x415241424943204C49474154555245204C414D205749544820414C45462057495448204D414444412041424F56452049534F4C4154454420464F524D20),
  (0xFEF6, 0x415241424943204C49474154555245204C414D205749544820414C45462057495448204D414444412041424F56452046494E414C20464F524D20),
  (0xFEF7, 0x415241424943204C49474154555245204C414D205749544820414C454620574954482048414D5A412041424F56452049534F4C4154454420464F524D20),
  (0xFEF8, 0x415241424943204C49474154555245204C414D205749544820414C454620574954482048414D5A412041424F56452046494E414C20464F524D20),
  (0xFEF9, 0x415241424943204C49474154555245204C414D205749544820414C454620574954482048414D5A412042454C4F572049534F4C4154454420464F524D20),
  (0xFEFA, 0x415241424943204C49474154555245204C414D205749544820414C454620574954482048414D5A412042454C4F572046494E414C20464F524D20),
  (0xFEFB, 0x415241424943204C49474154555245204C414D205749544820414C45462049534F4C4154454420464F524D20),
  (0xFEFC, 0x415241424943204C49474154555245204C414D205749544820414C45462046494E414C20464F524D20),
  (0xFEFF, 0x5A45524F205749445448204E4F2D425245414B20535041434520),
  (0xFF01, 0x46554C4C5749445448204558434C414D4154494F4E204D41524B20),
  (0xFF02, 0x46554C4C57494454482051554F544154494F4E204D41524B20),
  (0xFF03, 0x46554C4C5749445448204E554D424552205349474E20),
  (0xFF04, 0x46554C4C574944544820444F4C4C4152205349474E20),
  (0xFF05, 0x46554C4C57494454482050455243454E54205349474E20),
  (0xFF06, 0x46554C4C574944544820414D50455253414E4420),
  (0xFF07, 0x46554C4C57494454482041504F5354524F50484520),
  (0xFF08, 0x46554C4C5749445448204C45465420504152454E54484553495320),
  (0xFF09, 0x46554C4C574944544820524947485420504152454E54484553495320),
  (0xFF0A, 0x46554C4C574944544820415354455249534B20),
  (0xFF0B, 0x46554C4C574944544820504C5553205349474E20),
  (0xFF0C, 0x46554C4C574944544820434F4D4D4120),
  (0xFF0D, 0x46554C4C57494454482048595048454E2D4D494E555320),
  (0xFF0E, 0x46554C4C57494454482046554C4C2053544F5020),
  (0xFF0F, 0x46554C4C574944544820534F4C4944555320),
  (0xFF10, 0x46554C4C5749445448204449474954205A45524F20),
  (0xFF11, 0x46554C4C5749445448204449474954204F4E4520),
  (0xFF12, 0x46554C4C57494454482044494749542054574F20),
  (0xFF13, 0x46554C4C574944544820444947495420544852454520),
  (0xFF14, 0x46554C4C574944544820444947495420464F555220),
  (0xFF15, 0x46554C4C5749445448204449474954204649564520),
  (0xFF16, 0x46554C4C57494454482044494749542053495820),
  (0xFF17, 0x46554C4C574944544820444947495420534556454E20),
  (0xFF18, 0x46554C4C574944544820444947495420454947485420),
  (0xFF19, 0x46554C4C5749445448204449474954204E494E4520),
  (0xFF1A, 0x46554C4C574944544820434F4C4F4E20),
  (0xFF1B, 0x46554C4C57494454482053454D49434F4C4F4E20),
  (0xFF1C, 0x46554C4C5749445448204C4553532D5448414E205349474E20),
  (0xFF1D, 0x46554C4C574944544820455155414C53205349474E20),
  (0xFF1E, 0x46554C4C574944544820475245415445522D5448414E205349474E20),
  (0xFF1F, 0x46554C4C5749445448205155455354494F4E204D41524B20),
  (0xFF20, 0x46554C4C574944544820434F4D4D45524349414C20415420),
  (0xFF21, 0x46554C4C5749445448204C4154494E204341504954414C204C4554544552204120),
  (0xFF22, 0x46554C4C5749445448204C4154494E204341504954414C204C4554544552204220),
  (0xFF23, 0x46554C4C5749445448204C4154494E204341504954414C204C4554544552204320),
  (0xFF24, 0x46554C4C5749445448204C4154494E204341504954414C204C4554544552204420),
  (0xFF25, 0x46554C4C5749445448204C4154494E204341504954414C204C4554544552204520),
  (0xFF26, 0x46554C4C5749445448204C4154494E204341504954414C204C4554544552204620),
  (0xFF27, 0x46554C4C5749445448204C4154494E204341504954414C204C4554544552204720),
  (0xFF28, 0x46554C4C5749445448204C4154494E204341504954414C204C4554544552204820),
  (0xFF29, 0x46554C4C5749445448204C4154494E204341504954414C204C4554544552204920),
  (0xFF2A, 0x46554C4C5749445448204C4154494E204341504954414C204C4554544552204A20),
  (0xFF2B, 0x46554C4C5749445448204C4154494E204341504954414C204C4554544552204B20),
  (0xFF2C, 0x46554C4C5749445448204C4154494E204341504954414C204C4554544552204C20),
  (0xFF2D, 0x46554C4C5749445448204C4154494E204341504954414C204C4554544552204D20),
  (0xFF2E, 0x46554C4C5749445448204C4154494E204341504954414C204C4554544552204E20)]
def names_255 : List (Nat × Nat) := [
  (0xFF2F, 0x46554C4C5749445448204C4154494E204341504954414C204C4554544552204F20),
  (0xFF30, 0x46554C4C5749445448204C4154494E204341504954414C204C4554544552205020),
  (0xFF31, 0x46554C4C5749445448204C4154494E204341504954414C204C4554544552205120),
  (0xFF32, 0x46554C4C5749445448204C4154494E204341504954414C204C4554544552205220),
  (0xFF33, 0x46554C4C5749445448204C4154494E204341504954414C204C4554544552205320),
  (0xFF34, 0x46554C4C5749445448204C4154494E204341504954414C204C4554544552205420),
  (0xFF35, 0x46554C4C5749445448204C4154494E204341504954414C204C4554544552205520),
  (0xFF36, 0x46554C4C5749445448204C4154494E204341504954414C204C4554544552205620),
  (0xFF37, 0x46554C4C5749445448204C4154494E204341504954414C204C4554544552205720),
  (0xFF38, 0x46554C4C5749445448204C4154494E204341504954414C204C4554544552205820),
  (0xFF39, 0x46554C4C5749445448204C4154494E204341504954414C204C4554544552205920),
  (0xFF3A, 0x46554C4C5749445448204C4154494E204341504954414C204C4554544552205A20),
  (0xFF3B, 0x46554C4C5749445448204C4546542053515541524520425241434B455420),
  (0xFF3C, 0x46554C4C5749445448205245564552534520534F4C4944555320),
  (0xFF3D, 0x46554C4C57494454482052494748542053515541524520425241434B455420),
  (0xFF3E, 0x46554C4C57494454482043495243554D464C455820414343454E5420),
  (0xFF3F, 0x46554C4C5749445448204C4F57204C494E4520),
  (0xFF40, 0x46554C4C574944544820475241564520414343454E5420),
  (0xFF41, 0x46554C4C5749445448204C4154494E20534D414C4C204C4554544552204120),
  (0xFF42, 0x46554C4C5749445448204C4154494E20534D414C4C204C4554544552204220),
  (0xFF43, 0x46554C4C5749445448204C4154494E20534D414C4C204C4554544552204320),
  (0xFF44, 0x46554C4C5749445448204C4154494E20534D414C4C204C4554544552204420),
  (0xFF45, 0x46554C4C5749445448204C4154494E20534D414C4C204C4554544552204520),
  (0xFF46, 0x46554C4C5749445448204C4154494E20534D414C4C204C4554544552204620),
  (0xFF47, 0x46554C4C5749445448204C4154494E20534D414C4C204C4554544552204720),
  (0xFF48, 0x46554C4C5749445448204C4154494E20534D414C4C204C4554544552204820),
  (0xFF49, 0x46554C4C5749445448204C4154494E20534D414C4C204C4554544552204920),
  (0xFF4A, 0x46554C4C5749445448204C4154494E20534D414C4C204C4554544552204A20),
  (0xFF4B, 0x46554C4C5749445448204C4154494E20534D414C4C204C4554544552204B20),
  (0xFF4C, 0x46554C4C5749445448204C4154494E20534D414C4C204C4554544552204C20),
  (0xFF4D, 0x46554C4C5749445448204C4154494E20534D414C4C204C4554544552204D20),
  (0xFF4E, 0x46554C4C5749445448204C4154494E20534D414C4C204C4554544552204E20),
  (0xFF4F, 0x46554C4C5749445448204C4154494E20534D414C4C204C4554544552204F20),
  (0xFF50, 0x46554C4C5749445448204C4154494E20534D414C4C204C4554544552205020),
  (0xFF51, 0x46554C4C5749445448204C4154494E20534D414C4C204C4554544552205120),
  (0xFF52, 0x46554C4C5749445448204C4154494E20534D414C4C204C4554544552205220),
  (0xFF53, 0x46554C4C5749445448204C4154494E20534D414C4C204C4554544552205320),
  (0xFF54, 0x46554C4C5749445448204C4154494E20534D414C4C204C4554544552205420),
  (0xFF55, 0x46554C4C5749445448204C4154494E20534D414C4C204C4554544552205520),
  (0xFF56, 0x46554C4C5749445448204C4154494E20534D414C4C204C4554544552205620),
  (0xFF57, 0x46554C4C5749445448204C4154494E20534D414C4C204C4554544552205720),
  (0xFF58, 0x46554C4C5749445448204C4154494E20534D414C4C204C4554544552205820),
  (0xFF59, 0x46554C4C5749445448204C4154494E20534D414C4C204C4554544552205920),
  (0xFF5A, 0x46554C4C5749445448204C4154494E20534D414C4C204C4554544552205A20),
  (0xFF5B, 0x46554C4C5749445448204C454654204355524C5920425241434B455420),
  (0xFF5C, 0x46554C4C574944544820564552544943414C204C494E4520),
  (0xFF5D, 0x46554C4C5749445448205249474854204355524C5920425241434B455420),
  (0xFF5E, 0x46554C4C57494454482054494C444520),
  (0xFF5F, 0x46554C4C5749445448204C45465420574849544520504152454E54484553495320),
  (0xFF60, 0x46554C4C574944544820524947485420574849544520504152454E54484553495320),
  (0xFF61, 0x48414C465749445448204944454F475241504849432046554C4C2053544F5020),
  (0xFF62, 0x48414C465749445448204C45465420434F524E455220425241434B455420),
  (0xFF63, 0x48414C46574944544820524947485420434F524E455220425241434B455420),
  (0xFF64, 0x48414C465749445448204944454F4752415048494320434F4D4D4120),
  (0xFF65, 0x48414C465749445448204B4154414B414E41204D4944444C4520444F5420),
  (0xFF66, 0x48414C465749445448204B4154414B414E41204C455454455220574F20),
  (0xFF67, 0x48414C465749445448204B4154414B414E41204C455454455220534D414C4C204120),
  (0xFF68, 0x48414C465749445448204B4154414B414E41204C455454455220534D414C4C204920),
  (0xFF69, 0x48414C465749445448204B4154414B414E41204C455454455220534D414C4C205520),
  (0xFF6A, 0x48414C465749445448204B4154414B414E41204C455454455220534D414C4C204520),
  (0xFF6B, 0x48414C465749445448204B4154414B414E41204C455454455220534D414C4C204F20),
  (0xFF6C, 0x48414C465749445448204B4154414B414E41204C455454455220534D414C4C20594120),
  (0xFF6D, 0x48414C465749445448204B4154414B414E41204C455454455220534D414C4C20595520),
  (0xFF6E, 0x48414C465749445448204B4154414B414E41204C455454455220534D414C4C20594F20)]
def names_256 : List (Nat × Nat) := [
  (0xFF6F, 0x48414C465749445448204B4154414B414E41204C455454455220534D414C4C20545520),
  (0xFF70, 0x48414C465749445448204B4154414B414E412D4849524147414E412050524F4C4F4E47454420534F554E44204D41524B20),
  (0xFF71, 0x48414C465749445448204B4154414B414E41204C4554544552204120),
  (0xFF72, 0x48414C465749445448204B4154414B414E41204C4554544552204920),
  (0xFF73, 0x48414C465749445448204B4154414B414E41204C4554544552205520),
  (0xFF74, 0x48414C465749445448204B4154414B414E41204C4554544552204520),
  (0xFF75, 0x48414C465749445448204B4154414B414E41204C4554544552204F20),
  (0xFF76, 0x48414C465749445448204B4154414B414E41204C4554544552204B4120),
  (0xFF77, 0x48414C465749445448204B4154414B414E41204C4554544552204B4920),
  (0xFF78, 0x48414C465749445448204B4154414B414E41204C4554544552204B5520),
  (0xFF79, 0x48414C465749445448204B4154414B414E41204C4554544552204B4520),
  (0xFF7A, 0x48414C465749445448204B4154414B414E41204C4554544552204B4F20),
  (0xFF7B, 0x48414C465749445448204B4154414B414E41204C455454455220534120),
  (0xFF7C, 0x48414C465749445448204B4154414B414E41204C455454455220534920),
  (0xFF7D, 0x48414C465749445448204B4154414B414E41204C455454455220535520),
  (0xFF7E, 0x48414C465749445448204B4154414B414E41204C455454455220534520),
  (0xFF7F, 0x48414C465749445448204B4154414B414E41204C455454455220534F20),
  (0xFF80, 0x48414C465749445448204B4154414B414E41204C455454455220544120),
  (0xFF81, 0x48414C465749445448204B4154414B414E41204C455454455220544920),
  (0xFF82, 0x48414C465749445448204B4154414B414E41204C455454455220545520),
  (0xFF83, 0x48414C465749445448204B4154414B414E41204C455454455220544520),
  (0xFF84, 0x48414C465749445448204B4154414B414E41204C455454455220544F20),
  (0xFF85, 0x48414C465749445448204B4154414B414E41204C4554544552204E4120),
  (0xFF86, 0x48414C465749445448204B4154414B414E41204C4554544552204E4920),
  (0xFF87, 0x48414C465749445448204B4154414B414E41204C4554544552204E5520),
  (0xFF88, 0x48414C465749445448204B4154414B414E41204C4554544552204E4520),
  (0xFF89, 0x48414C465749445448204B4154414B414E41204C4554544552204E4F20),
  (0xFF8A, 0x48414C465749445448204B4154414B414E41204C455454455220484120),
  (0xFF8B, 0x48414C465749445448204B4154414B414E41204C455454455220484920),
  (0xFF8C, 0x48414C465749445448204B4154414B414E41204C455454455220485520),
  (0xFF8D, 0x48414C465749445448204B4154414B414E41204C455454455220484520),
  (0xFF8E, 0x48414C465749445448204B4154414B414E41204C455454455220484F20),
  (0xFF8F, 0x48414C465749445448204B4154414B414E41204C4554544552204D4120),
  (0xFF90, 0x48414C465749445448204B4154414B414E41204C4554544552204D4920),
  (0xFF91, 0x48414C465749445448204B4154414B414E41204C4554544552204D5520),
  (0xFF92, 0x48414C465749445448204B4154414B414E41204C4554544552204D4520),
  (0xFF93, 0x48414C465749445448204B4154414B414E41204C4554544552204D4F20),
  (0xFF94, 0x48414C465749445448204B4154414B414E41204C455454455220594120),
  (0xFF95, 0x48414C465749445448204B4154414B414E41204C455454455220595520),
  (0xFF96, 0x48414C465749445448204B4154414B414E41204C455454455220594F20),
  (0xFF97, 0x48414C465749445448204B4154414B414E41204C455454455220524120),
  (0xFF98, 0x48414C465749445448204B4154414B414E41204C455454455220524920),
  (0xFF99, 0x48414C465749445448204B4154414B414E41204C455454455220525520),
  (0xFF9A, 0x48414C465749445448204B4154414B414E41204C455454455220524520),
  (0xFF9B, 0x48414C465749445448204B4154414B414E41204C455454455220524F20),
  (0xFF9C, 0x48414C465749445448204B4154414B414E41204C455454455220574120),
  (0xFF9D, 0x48414C465749445448204B4154414B414E41204C4554544552204E20),
  (0xFF9E, 0x48414C465749445448204B4154414B414E4120564F4943454420534F554E44204D41524B20),
  (0xFF9F, 0x48414C465749445448204B4154414B414E412053454D492D564F4943454420534F554E44204D41524B20),
  (0xFFA0, 0x48414C4657494454482048414E47554C2046494C4C455220),
  (0xFFA1, 0x48414C4657494454482048414E47554C204C4554544552204B4959454F4B20),
  (0xFFA2, 0x48414C4657494454482048414E47554C204C4554544552205353414E474B4959454F4B20),
  (0xFFA3, 0x48414C4657494454482048414E47554C204C4554544552204B4959454F4B2D53494F5320),
  (0xFFA4, 0x48414C4657494454482048414E47554C204C4554544552204E4945554E20),
  (0xFFA5, 0x48414C4657494454482048414E47554C204C4554544552204E4945554E2D434945554320),
  (0xFFA6, 0x48414C4657494454482048414E47554C204C4554544552204E4945554E2D484945554820),
  (0xFFA7, 0x48414C4657494454482048414E47554C204C45545445522054494B45555420),
  (0xFFA8, 0x48414C4657494454482048414E47554C204C4554544552205353414E4754494B45555420),
  (0xFFA9, 0x48414C4657494454482048414E47554C204C455454455220524945554C20),
  (0xFFAA, 0x48414C4657494454482048414E47554C204C455454455220524945554C2D4B4959454F4B20),
  (0xFFAB, 0x48414C4657494454482048414E47554C204C455454455220524945554C2D4D4945554D20),
  (0xFFAC, 0x48414C4657494454482048414E47554C204C455454455220524945554C2D504945555020),
  (0xFFAD, 0x48414C4657494454482048414E47554C204C455454455220524945554C2D53494F5320),
  (0xFFAE, 0x48414C4657494454482048414E47554C204C455454455220524945554C2D5448494555544820)]
def names_257 : List (Nat × Nat) := [
  (0xFFAF, 0x48414C4657494454482048414E47554C204C455454455220524945554C2D5048494555504820),
  (0xFFB0, 0x48414C4657494454482048414E47554C204C455454455220524945554C2D484945554820),
  (0xFFB1, 0x48414C4657494454482048414E47554C204C4554544552204D4945554D20),
  (0xFFB2, 0x48414C4657494454482048414E47554C204C455454455220504945555020),
  (0xFFB3, 0x48414C4657494454482048414E47554C204C4554544552205353414E47504945555020),
  (0xFFB4, 0x48414C4657494454482048414E47554C204C45545445522050494555502D53494F5320),
  (0xFFB5, 0x48414C4657494454482048414E47554C204C45545445522053494F5320),
  (0xFFB6, 0x48414C4657494454482048414E47554C204C4554544552205353414E4753494F5320),
  (0xFFB7, 0x48414C4657494454482048414E47554C204C4554544552204945554E4720),
  (0xFFB8, 0x48414C4657494454482048414E47554C204C455454455220434945554320),
  (0xFFB9, 0x48414C4657494454482048414E47554C204C4554544552205353414E47434945554320),
  (0xFFBA, 0x48414C4657494454482048414E47554C204C4554544552204348494555434820),
  (0xFFBB, 0x48414C4657494454482048414E47554C204C4554544552204B484945554B4820),
  (0xFFBC, 0x48414C4657494454482048414E47554C204C4554544552205448494555544820),
  (0xFFBD, 0x48414C4657494454482048414E47554C204C4554544552205048494555504820),
  (0xFFBE, 0x48414C4657494454482048414E47554C204C455454455220484945554820),
  (0xFFC2, 0x48414C4657494454482048414E47554C204C4554544552204120),
  (0xFFC3, 0x48414C4657494454482048414E47554C204C455454455220414520),
  (0xFFC4, 0x48414C4657494454482048414E47554C204C455454455220594120),
  (0xFFC5, 0x48414C4657494454482048414E47554C204C45545445522059414520),
  (0xFFC6, 0x48414C4657494454482048414E47554C204C455454455220454F20),
  (0xFFC7, 0x48414C4657494454482048414E47554C204C4554544552204520),
  (0xFFCA, 0x48414C4657494454482048414E47554C204C45545445522059454F20),
  (0xFFCB, 0x48414C4657494454482048414E47554C204C455454455220594520),
  (0xFFCC, 0x48414C4657494454482048414E47554C204C4554544552204F20),
  (0xFFCD, 0x48414C4657494454482048414E47554C204C455454455220574120),
  (0xFFCE, 0x48414C4657494454482048414E47554C204C45545445522057414520),
  (0xFFCF, 0x48414C4657494454482048414E47554C204C4554544552204F4520),
  (0xFFD2, 0x48414C4657494454482048414E47554C204C455454455220594F20),
  (0xFFD3, 0x48414C4657494454482048414E47554C204C4554544552205520),
  (0xFFD4, 0x48414C4657494454482048414E47554C204C45545445522057454F20),
  (0xFFD5, 0x48414C4657494454482048414E47554C204C455454455220574520),
  (0xFFD6, 0x48414C4657494454482048414E47554C204C455454455220574920),
  (0xFFD7, 0x48414C4657494454482048414E47554C204C455454455220595520),
  (0xFFDA, 0x48414C4657494454482048414E47554C204C455454455220455520),
  (0xFFDB, 0x48414C4657494454482048414E47554C204C455454455220594920),
  (0xFFDC, 0x48414C4657494454482048414E47554C204C4554544552204920),
  (0xFFE0, 0x46554C4C57494454482043454E54205349474E20),
  (0xFFE1, 0x46554C4C574944544820504F554E44205349474E20),
  (0xFFE2, 0x46554C4C5749445448204E4F54205349474E20),
  (0xFFE3, 0x46554C4C5749445448204D4143524F4E20),
  (0xFFE4, 0x46554C4C57494454482042524F4B454E2042415220),
  (0xFFE5, 0x46554C4C57494454482059454E205349474E20),
  (0xFFE6, 0x46554C4C574944544820574F4E205349474E20),
  (0xFFE8, 0x48414C46574944544820464F524D53204C4947485420564552544943414C20),
  (0xFFE9, 0x48414C465749445448204C4546545741524453204152524F5720),
  (0xFFEA, 0x48414C4657494454482055505741524453204152524F5720),
  (0xFFEB, 0x48414C4657494454482052494748545741524453204152524F5720),
  (0xFFEC, 0x48414C46574944544820444F574E5741524453204152524F5720),
  (0xFFED, 0x48414C46574944544820424C41434B2053515541524520),
  (0xFFEE, 0x48414C46574944544820574849544520434952434C4520),
  (0xFFF9, 0x494E5445524C494E45415220414E4E4F544154494F4E20414E43484F5220),
  (0xFFFA, 0x494E5445524C494E45415220414E4E4F544154494F4E20534550415241544F5220),
  (0xFFFB, 0x494E5445524C494E45415220414E4E4F544154494F4E205445524D494E41544F5220),
  (0xFFFC, 0x4F424A454354205245504C4143454D454E542043484152414354455220),
  (0xFFFD, 0x5245504C4143454D454E542043484152414354455220),
  (0x10000, 0x4C494E45415220422053594C4C41424C452042303038204120),
  (0x10001, 0x4C494E45415220422053594C4C41424C452042303338204520),
  (0x10002, 0x4C494E45415220422053594C4C41424C452042303238204920),
  (0x10003, 0x4C494E45415220422053594C4C41424C452042303631204F20),
  (0x10004, 0x4C494E45415220422053594C4C41424C452042303130205520),
  (0x10005, 0x4C494E45415220422053594C4C41424C45204230303120444120),
  (0x10006, 0x4C494E45415220422053594C4C41424C45204230343520444520),
  (0x10007, 0x4C494E45415220422053594C4C41424C45204230303720444920)]
def names_258 : List (Nat × Nat) := [
  (0x10008, 0x4C494E45415220422053594C4C41424C45204230313420444F20),
  (0x10009, 0x4C494E45415220422053594C4C41424C45204230353120445520),
  (0x1000A, 0x4C494E45415220422053594C4C41424C452042303537204A4120),
  (0x1000B, 0x4C494E45415220422053594C4C41424C452042303436204A4520),
  (0x1000D, 0x4C494E45415220422053594C4C41424C452042303336204A4F20),
  (0x1000E, 0x4C494E45415220422053594C4C41424C452042303635204A5520),
  (0x1000F, 0x4C494E45415220422053594C4C41424C452042303737204B4120),
  (0x10010, 0x4C494E45415220422053594C4C41424C452042303434204B4520),
  (0x10011, 0x4C494E45415220422053594C4C41424C452042303637204B4920),
  (0x10012, 0x4C494E45415220422053594C4C41424C452042303730204B4F20),
  (0x10013, 0x4C494E45415220422053594C4C41424C452042303831204B5520),
  (0x10014, 0x4C494E45415220422053594C4C41424C452042303830204D4120),
  (0x10015, 0x4C494E45415220422053594C4C41424C452042303133204D4520),
  (0x10016, 0x4C494E45415220422053594C4C41424C452042303733204D4920),
  (0x10017, 0x4C494E45415220422053594C4C41424C452042303135204D4F20),
  (0x10018, 0x4C494E45415220422053594C4C41424C452042303233204D5520),
  (0x10019, 0x4C494E45415220422053594C4C41424C452042303036204E4120),
  (0x1001A, 0x4C494E45415220422053594C4C41424C452042303234204E4520),
  (0x1001B, 0x4C494E45415220422053594C4C41424C452042303330204E4920),
  (0x1001C, 0x4C494E45415220422053594C4C41424C452042303532204E4F20),
  (0x1001D, 0x4C494E45415220422053594C4C41424C452042303535204E5520),
  (0x1001E, 0x4C494E45415220422053594C4C41424C45204230303320504120),
  (0x1001F, 0x4C494E45415220422053594C4C41424C45204230373220504520),
  (0x10020, 0x4C494E45415220422053594C4C41424C45204230333920504920),
  (0x10021, 0x4C494E45415220422053594C4C41424C45204230313120504F20),
  (0x10022, 0x4C494E45415220422053594C4C41424C45204230353020505520),
  (0x10023, 0x4C494E45415220422053594C4C41424C45204230313620514120),
  (0x10024, 0x4C494E45415220422053594C4C41424C45204230373820514520),
  (0x10025, 0x4C494E45415220422053594C4C41424C45204230323120514920),
  (0x10026, 0x4C494E45415220422053594C4C41424C45204230333220514F20),
  (0x10028, 0x4C494E45415220422053594C4C41424C45204230363020524120),
  (0x10029, 0x4C494E45415220422053594C4C41424C45204230323720524520),
  (0x1002A, 0x4C494E45415220422053594C4C41424C45204230353320524920),
  (0x1002B, 0x4C494E45415220422053594C4C41424C45204230303220524F20),
  (0x1002C, 0x4C494E45415220422053594C4C41424C45204230323620525520),
  (0x1002D, 0x4C494E45415220422053594C4C41424C45204230333120534120),
  (0x1002E, 0x4C494E45415220422053594C4C41424C45204230303920534520),
  (0x1002F, 0x4C494E45415220422053594C4C41424C45204230343120534920),
  (0x10030, 0x4C494E45415220422053594C4C41424C45204230313220534F20),
  (0x10031, 0x4C494E45415220422053594C4C41424C45204230353820535520),
  (0x10032, 0x4C494E45415220422053594C4C41424C45204230353920544120),
  (0x10033, 0x4C494E45415220422053594C4C41424C45204230303420544520),
  (0x10034, 0x4C494E45415220422053594C4C41424C45204230333720544920),
  (0x10035, 0x4C494E45415220422053594C4C41424C45204230303520544F20),
  (0x10036, 0x4C494E45415220422053594C4C41424C45204230363920545520),
  (0x10037, 0x4C494E45415220422053594C4C41424C45204230353420574120),
  (0x10038, 0x4C494E45415220422053594C4C41424C45204230373520574520),
  (0x10039, 0x4C494E45415220422053594C4C41424C45204230343020574920),
  (0x1003A, 0x4C494E45415220422053594C4C41424C45204230343220574F20),
  (0x1003C, 0x4C494E45415220422053594C4C41424C452042303137205A4120),
  (0x1003D, 0x4C494E45415220422053594C4C41424C452042303734205A4520),
  (0x1003F, 0x4C494E45415220422053594C4C41424C452042303230205A4F20),
  (0x10040, 0x4C494E45415220422053594C4C41424C45204230323520413220),
  (0x10041, 0x4C494E45415220422053594C4C41424C45204230343320413320),
  (0x10042, 0x4C494E45415220422053594C4C41424C45204230383520415520),
  (0x10043, 0x4C494E45415220422053594C4C41424C4520423037312044574520),
  (0x10044, 0x4C494E45415220422053594C4C41424C4520423039302044574F20),
  (0x10045, 0x4C494E45415220422053594C4C41424C452042303438204E574120),
  (0x10046, 0x4C494E45415220422053594C4C41424C4520423032392050553220),
  (0x10047, 0x4C494E45415220422053594C4C41424C4520423036322050544520),
  (0x10048, 0x4C494E45415220422053594C4C41424C4520423037362052413220),
  (0x10049, 0x4C494E45415220422053594C4C41424C4520423033332052413320),
  (0x1004A, 0x4C494E45415220422053594C4C41424C45204230363820524F3220),
  (0x1004B, 0x4C494E45415220422053594C4C41424C4520423036362054413220)]
def names_259 : List (Nat × Nat) := [
  (0x1004C, 0x4C494E45415220422053594C4C41424C4520423038372054574520),
  (0x1004D, 0x4C494E45415220422053594C4C41424C4520423039312054574F20),
  (0x10050, 0x4C494E45415220422053594D424F4C204230313820),
  (0x10051, 0x4C494E45415220422053594D424F4C204230313920),
  (0x10052, 0x4C494E45415220422053594D424F4C204230323220),
  (0x10053, 0x4C494E45415220422053594D424F4C204230333420),
  (0x10054, 0x4C494E45415220422053594D424F4C204230343720),
  (0x10055, 0x4C494E45415220422053594D424F4C204230343920),
  (0x10056, 0x4C494E45415220422053594D424F4C204230353620),
  (0x10057, 0x4C494E45415220422053594D424F4C204230363320),
  (0x10058, 0x4C494E45415220422053594D424F4C204230363420),
  (0x10059, 0x4C494E45415220422053594D424F4C204230373920),
  (0x1005A, 0x4C494E45415220422053594D424F4C204230383220),
  (0x1005B, 0x4C494E45415220422053594D424F4C204230383320),
  (0x1005C, 0x4C494E45415220422053594D424F4C204230383620),
  (0x1005D, 0x4C494E45415220422053594D424F4C204230383920),
  (0x10080, 0x4C494E4541522042204944454F4752414D2042313030204D414E20),
  (0x10081, 0x4C494E4541522042204944454F4752414D204231303220574F4D414E20),
  (0x10082, 0x4C494E4541522042204944454F4752414D2042313034204445455220),
  (0x10083, 0x4C494E4541522042204944454F4752414D204231303520455155494420),
  (0x10084, 0x4C494E4541522042204944454F4752414D204231303546204D41524520),
  (0x10085, 0x4C494E4541522042204944454F4752414D20423130354D205354414C4C494F4E20),
  (0x10086, 0x4C494E4541522042204944454F4752414D2042313036462045574520),
  (0x10087, 0x4C494E4541522042204944454F4752414D20423130364D2052414D20),
  (0x10088, 0x4C494E4541522042204944454F4752414D204231303746205348452D474F415420),
  (0x10089, 0x4C494E4541522042204944454F4752414D20423130374D2048452D474F415420),
  (0x1008A, 0x4C494E4541522042204944454F4752414D20423130384620534F5720),
  (0x1008B, 0x4C494E4541522042204944454F4752414D20423130384D20424F415220),
  (0x1008C, 0x4C494E4541522042204944454F4752414D20423130394620434F5720),
  (0x1008D, 0x4C494E4541522042204944454F4752414D20423130394D2042554C4C20),
  (0x1008E, 0x4C494E4541522042204944454F4752414D204231323020574845415420),
  (0x1008F, 0x4C494E4541522042204944454F4752414D2042313231204241524C455920),
  (0x10090, 0x4C494E4541522042204944454F4752414D2042313232204F4C49564520),
  (0x10091, 0x4C494E4541522042204944454F4752414D204231323320535049434520),
  (0x10092, 0x4C494E4541522042204944454F4752414D2042313235204359504552555320),
  (0x10093, 0x4C494E4541522042204D4F4E4F4752414D2042313237204B41504F20),
  (0x10094, 0x4C494E4541522042204D4F4E4F4752414D2042313238204B414E414B4F20),
  (0x10095, 0x4C494E4541522042204944454F4752414D2042313330204F494C20),
  (0x10096, 0x4C494E4541522042204944454F4752414D20423133312057494E4520),
  (0x10097, 0x4C494E4541522042204944454F4752414D204231333220),
  (0x10098, 0x4C494E4541522042204D4F4E4F4752414D204231333320415245504120),
  (0x10099, 0x4C494E4541522042204D4F4E4F4752414D2042313335204D45524920),
  (0x1009A, 0x4C494E4541522042204944454F4752414D20423134302042524F4E5A4520),
  (0x1009B, 0x4C494E4541522042204944454F4752414D204231343120474F4C4420),
  (0x1009C, 0x4C494E4541522042204944454F4752414D204231343220),
  (0x1009D, 0x4C494E4541522042204944454F4752414D204231343520574F4F4C20),
  (0x1009E, 0x4C494E4541522042204944454F4752414D204231343620),
  (0x1009F, 0x4C494E4541522042204944454F4752414D204231353020),
  (0x100A0, 0x4C494E4541522042204944454F4752414D204231353120484F524E20),
  (0x100A1, 0x4C494E4541522042204944454F4752414D204231353220),
  (0x100A2, 0x4C494E4541522042204944454F4752414D204231353320),
  (0x100A3, 0x4C494E4541522042204944454F4752414D204231353420),
  (0x100A4, 0x4C494E4541522042204D4F4E4F4752414D2042313536205455524F3220),
  (0x100A5, 0x4C494E4541522042204944454F4752414D204231353720),
  (0x100A6, 0x4C494E4541522042204944454F4752414D204231353820),
  (0x100A7, 0x4C494E4541522042204944454F4752414D204231353920434C4F544820),
  (0x100A8, 0x4C494E4541522042204944454F4752414D204231363020),
  (0x100A9, 0x4C494E4541522042204944454F4752414D204231363120),
  (0x100AA, 0x4C494E4541522042204944454F4752414D2042313632204741524D454E5420),
  (0x100AB, 0x4C494E4541522042204944454F4752414D20423136332041524D4F555220),
  (0x100AC, 0x4C494E4541522042204944454F4752414D204231363420),
  (0x100AD, 0x4C494E4541522042204944454F4752414D204231363520),
  (0x100AE, 0x4C494E4541522042204944454F4752414D204231363620),
  (0x100AF, 0x4C494E4541522042204944454F4752414D204231363720)]
def names_260 : List (Nat × Nat) := [
  (0x100B0, 0x4C494E4541522042204944454F4752414D204231363820),
  (0x100B1, 0x4C494E4541522042204944454F4752414D204231363920),
  (0x100B2, 0x4C494E4541522042204944454F4752414D204231373020),
  (0x100B3, 0x4C494E4541522042204944454F4752414D204231373120),
  (0x100B4, 0x4C494E4541522042204944454F4752414D204231373220),
  (0x100B5, 0x4C494E4541522042204944454F4752414D2042313733204D4F4E544820),
  (0x100B6, 0x4C494E4541522042204944454F4752414D204231373420),
  (0x100B7, 0x4C494E4541522042204944454F4752414D2042313736205452454520),
  (0x100B8, 0x4C494E4541522042204944454F4752414D204231373720),
  (0x100B9, 0x4C494E4541522042204944454F4752414D204231373820),
  (0x100BA, 0x4C494E4541522042204944454F4752414D204231373920),
  (0x100BB, 0x4C494E4541522042204944454F4752414D204231383020),
  (0x100BC, 0x4C494E4541522042204944454F4752414D204231383120),
  (0x100BD, 0x4C494E4541522042204944454F4752414D204231383220),
  (0x100BE, 0x4C494E4541522042204944454F4752414D204231383320),
  (0x100BF, 0x4C494E4541522042204944454F4752414D204231383420),
  (0x100C0, 0x4C494E4541522042204944454F4752414D204231383520),
  (0x100C1, 0x4C494E4541522042204944454F4752414D204231383920),
  (0x100C2, 0x4C494E4541522042204944454F4752414D204231393020),
  (0x100C3, 0x4C494E4541522042204944454F4752414D20423139312048454C4D455420),
  (0x100C4, 0x4C494E4541522042204944454F4752414D204232323020464F4F5453544F4F4C20),
  (0x100C5, 0x4C494E4541522042204944454F4752414D2042323235204241544854554220),
  (0x100C6, 0x4C494E4541522042204944454F4752414D204232333020535045415220),
  (0x100C7, 0x4C494E4541522042204944454F4752414D2042323331204152524F5720),
  (0x100C8, 0x4C494E4541522042204944454F4752414D204232333220),
  (0x100C9, 0x4C494E4541522042204944454F4752414D20423233332053574F524420),
  (0x100CA, 0x4C494E4541522042204944454F4752414D204232333420),
  (0x100CB, 0x4C494E4541522042204944454F4752414D204232333620),
  (0x100CC, 0x4C494E4541522042204944454F4752414D204232343020574845454C45442043484152494F5420),
  (0x100CD, 0x4C494E4541522042204944454F4752414D20423234312043484152494F5420),
  (0x100CE, 0x4C494E4541522042204944454F4752414D20423234322043484152494F54204652414D4520),
  (0x100CF, 0x4C494E4541522042204944454F4752414D204232343320574845454C20),
  (0x100D0, 0x4C494E4541522042204944454F4752414D204232343520),
  (0x100D1, 0x4C494E4541522042204944454F4752414D204232343620),
  (0x100D2, 0x4C494E4541522042204D4F4E4F4752414D204232343720444950544520),
  (0x100D3, 0x4C494E4541522042204944454F4752414D204232343820),
  (0x100D4, 0x4C494E4541522042204944454F4752414D204232343920),
  (0x100D5, 0x4C494E4541522042204944454F4752414D204232353120),
  (0x100D6, 0x4C494E4541522042204944454F4752414D204232353220),
  (0x100D7, 0x4C494E4541522042204944454F4752414D204232353320),
  (0x100D8, 0x4C494E4541522042204944454F4752414D2042323534204441525420),
  (0x100D9, 0x4C494E4541522042204944454F4752414D204232353520),
  (0x100DA, 0x4C494E4541522042204944454F4752414D204232353620),
  (0x100DB, 0x4C494E4541522042204944454F4752414D204232353720),
  (0x100DC, 0x4C494E4541522042204944454F4752414D204232353820),
  (0x100DD, 0x4C494E4541522042204944454F4752414D204232353920),
  (0x100DE, 0x4C494E4541522042204944454F4752414D2056455353454C204231353520),
  (0x100DF, 0x4C494E4541522042204944454F4752414D2056455353454C204232303020),
  (0x100E0, 0x4C494E4541522042204944454F4752414D2056455353454C204232303120),
  (0x100E1, 0x4C494E4541522042204944454F4752414D2056455353454C204232303220),
  (0x100E2, 0x4C494E4541522042204944454F4752414D2056455353454C204232303320),
  (0x100E3, 0x4C494E4541522042204944454F4752414D2056455353454C204232303420),
  (0x100E4, 0x4C494E4541522042204944454F4752414D2056455353454C204232303520),
  (0x100E5, 0x4C494E4541522042204944454F4752414D2056455353454C204232303620),
  (0x100E6, 0x4C494E4541522042204944454F4752414D2056455353454C204232303720),
  (0x100E7, 0x4C494E4541522042204944454F4752414D2056455353454C204232303820),
  (0x100E8, 0x4C494E4541522042204944454F4752414D2056455353454C204232303920),
  (0x100E9, 0x4C494E4541522042204944454F4752414D2056455353454C204232313020),
  (0x100EA, 0x4C494E4541522042204944454F4752414D2056455353454C204232313120),
  (0x100EB, 0x4C494E4541522042204944454F4752414D2056455353454C204232313220),
  (0x100EC, 0x4C494E4541522042204944454F4752414D2056455353454C204232313320),
  (0x100ED, 0x4C494E4541522042204944454F4752414D2056455353454C204232313420),
  (0x100EE, 0x4C494E4541522042204944454F4752414D2056455353454C204232313520),
  (0x100EF, 0x4C494E4541522042204944454F4752414D2056455353454C204232313620)]
def names_261 : List (Nat × Nat) := [
  (0x100F0, 0x4C494E4541522042204944454F4752414D2056455353454C204232313720),
  (0x100F1, 0x4C494E4541522042204944454F4752414D2056455353454C204232313820),
  (0x100F2, 0x4C494E4541522042204944454F4752414D2056455353454C204232313920),
  (0x100F3, 0x4C494E4541522042204944454F4752414D2056455353454C204232323120),
  (0x100F4, 0x4C494E4541522042204944454F4752414D2056455353454C204232323220),
  (0x100F5, 0x4C494E4541522042204944454F4752414D2056455353454C204232323620),
  (0x100F6, 0x4C494E4541522042204944454F4752414D2056455353454C204232323720),
  (0x100F7, 0x4C494E4541522042204944454F4752414D2056455353454C204232323820),
  (0x100F8, 0x4C494E4541522042204944454F4752414D2056455353454C204232323920),
  (0x100F9, 0x4C494E4541522042204944454F4752414D2056455353454C204232353020),
  (0x100FA, 0x4C494E4541522042204944454F4752414D2056455353454C204233303520),
  (0x10100, 0x41454745414E20574F524420534550415241544F52204C494E4520),
  (0x10101, 0x41454745414E20574F524420534550415241544F5220444F5420),
  (0x10102, 0x41454745414E20434845434B204D41524B20),
  (0x10107, 0x41454745414E204E554D424552204F4E4520),
  (0x10108, 0x41454745414E204E554D4245522054574F20),
  (0x10109, 0x41454745414E204E554D42455220544852454520),
  (0x1010A, 0x41454745414E204E554D42455220464F555220),
  (0x1010B, 0x41454745414E204E554D424552204649564520),
  (0x1010C, 0x41454745414E204E554D4245522053495820),
  (0x1010D, 0x41454745414E204E554D42455220534556454E20),
  (0x1010E, 0x41454745414E204E554D42455220454947485420),
  (0x1010F, 0x41454745414E204E554D424552204E494E4520),
  (0x10110, 0x41454745414E204E554D4245522054454E20),
  (0x10111, 0x41454745414E204E554D424552205457454E545920),
  (0x10112, 0x41454745414E204E554D4245522054484952545920),
  (0x10113, 0x41454745414E204E554D42455220464F52545920),
  (0x10114, 0x41454745414E204E554D42455220464946545920),
  (0x10115, 0x41454745414E204E554D42455220534958545920),
  (0x10116, 0x41454745414E204E554D42455220534556454E545920),
  (0x10117, 0x41454745414E204E554D4245522045494748545920),
  (0x10118, 0x41454745414E204E554D424552204E494E45545920),
  (0x10119, 0x41454745414E204E554D424552204F4E452048554E4452454420),
  (0x1011A, 0x41454745414E204E554D4245522054574F2048554E4452454420),
  (0x1011B, 0x41454745414E204E554D4245522054485245452048554E4452454420),
  (0x1011C, 0x41454745414E204E554D42455220464F55522048554E4452454420),
  (0x1011D, 0x41454745414E204E554D42455220464956452048554E4452454420),
  (0x1011E, 0x41454745414E204E554D424552205349582048554E4452454420),
  (0x1011F, 0x41454745414E204E554D42455220534556454E2048554E4452454420),
  (0x10120, 0x41454745414E204E554D4245522045494748542048554E4452454420),
  (0x10121, 0x41454745414E204E554D424552204E494E452048554E4452454420),
  (0x10122, 0x41454745414E204E554D424552204F4E452054484F5553414E4420),
  (0x10123, 0x41454745414E204E554D4245522054574F2054484F5553414E4420),
  (0x10124, 0x41454745414E204E554D4245522054485245452054484F5553414E4420),
  (0x10125, 0x41454745414E204E554D42455220464F55522054484F5553414E4420),
  (0x10126, 0x41454745414E204E554D42455220464956452054484F5553414E4420),
  (0x10127, 0x41454745414E204E554D424552205349582054484F5553414E4420),
  (0x10128, 0x41454745414E204E554D42455220534556454E2054484F5553414E4420),
  (0x10129, 0x41454745414E204E554D4245522045494748542054484F5553414E4420),
  (0x1012A, 0x41454745414E204E554D424552204E494E452054484F5553414E4420),
  (0x1012B, 0x41454745414E204E554D4245522054454E2054484F5553414E4420),
  (0x1012C, 0x41454745414E204E554D424552205457454E54592054484F5553414E4420),
  (0x1012D, 0x41454745414E204E554D424552205448495254592054484F5553414E4420),
  (0x1012E, 0x41454745414E204E554D42455220464F5254592054484F5553414E4420),
  (0x1012F, 0x41454745414E204E554D4245522046494654592054484F5553414E4420),
  (0x10130, 0x41454745414E204E554D4245522053495854592054484F5553414E4420),
  (0x10131, 0x41454745414E204E554D42455220534556454E54592054484F5553414E4420),
  (0x10132, 0x41454745414E204E554D424552204549474854592054484F5553414E4420),
  (0x10133, 0x41454745414E204E554D424552204E494E4554592054484F5553414E4420),
  (0x10137, 0x41454745414E20574549474854204241534520554E495420),
  (0x10138, 0x41454745414E2057454947485420464952535420535542554E495420),
  (0x10139, 0x41454745414E20574549474854205345434F4E4420535542554E495420),
  (0x1013A, 0x41454745414E2057454947485420544849524420535542554E495420),
  (0x1013B, 0x41454745414E2057454947485420464F5552544820535542554E495420)]
def names_262 : List (Nat × Nat) := [
  (0x1013C, 0x41454745414E20445259204D45415355524520464952535420535542554E495420),
  (0x1013D, 0x41454745414E204C4951554944204D45415355524520464952535420535542554E495420),
  (0x1013E, 0x41454745414E204D454153555245205345434F4E4420535542554E495420),
  (0x1013F, 0x41454745414E204D45415355524520544849524420535542554E495420),
  (0x10140, 0x475245454B204143524F50484F4E4943204154544943204F4E45205155415254455220),
  (0x10141, 0x475245454B204143524F50484F4E4943204154544943204F4E452048414C4620),
  (0x10142, 0x475245454B204143524F50484F4E4943204154544943204F4E452044524143484D4120),
  (0x10143, 0x475245454B204143524F50484F4E4943204154544943204649564520),
  (0x10144, 0x475245454B204143524F50484F4E494320415454494320464946545920),
  (0x10145, 0x475245454B204143524F50484F4E494320415454494320464956452048554E4452454420),
  (0x10146, 0x475245454B204143524F50484F4E494320415454494320464956452054484F5553414E4420),
  (0x10147, 0x475245454B204143524F50484F4E49432041545449432046494654592054484F5553414E4420),
  (0x10148, 0x475245454B204143524F50484F4E494320415454494320464956452054414C454E545320),
  (0x10149, 0x475245454B204143524F50484F4E49432041545449432054454E2054414C454E545320),
  (0x1014A, 0x475245454B204143524F50484F4E49432041545449432046494654592054414C454E545320),
  (0x1014B, 0x475245454B204143524F50484F4E4943204154544943204F4E452048554E445245442054414C454E545320),
  (0x1014C, 0x475245454B204143524F50484F4E494320415454494320464956452048554E445245442054414C454E545320),
  (0x1014D, 0x475245454B204143524F50484F4E4943204154544943204F4E452054484F5553414E442054414C454E545320),
  (0x1014E, 0x475245454B204143524F50484F4E494320415454494320464956452054484F5553414E442054414C454E545320),
  (0x1014F, 0x475245454B204143524F50484F4E49432041545449432046495645205354415445525320),
  (0x10150, 0x475245454B204143524F50484F4E49432041545449432054454E205354415445525320),
  (0x10151, 0x475245454B204143524F50484F4E4943204154544943204649465459205354415445525320),
  (0x10152, 0x475245454B204143524F50484F4E4943204154544943204F4E452048554E44524544205354415445525320),
  (0x10153, 0x475245454B204143524F50484F4E494320415454494320464956452048554E44524544205354415445525320),
  (0x10154, 0x475245454B204143524F50484F4E4943204154544943204F4E452054484F5553414E44205354415445525320),
  (0x10155, 0x475245454B204143524F50484F4E49432041545449432054454E2054484F5553414E44205354415445525320),
  (0x10156, 0x475245454B204143524F50484F4E49432041545449432046494654592054484F5553414E44205354415445525320),
  (0x10157, 0x475245454B204143524F50484F4E49432041545449432054454E204D4E415320),
  (0x10158, 0x475245454B204143524F50484F4E4943204845524145554D204F4E4520504C455448524F4E20),
  (0x10159, 0x475245454B204143524F50484F4E494320544845535049414E204F4E4520),
  (0x1015A, 0x475245454B204143524F50484F4E4943204845524D494F4E49414E204F4E4520),
  (0x1015B, 0x475245454B204143524F50484F4E4943204550494441555245414E2054574F20),
  (0x1015C, 0x475245454B204143524F50484F4E494320544845535049414E2054574F20),
  (0x1015D, 0x475245454B204143524F50484F4E494320435952454E4149432054574F2044524143484D415320),
  (0x1015E, 0x475245454B204143524F50484F4E4943204550494441555245414E2054574F2044524143484D415320),
  (0x1015F, 0x475245454B204143524F50484F4E49432054524F455A454E49414E204649564520),
  (0x10160, 0x475245454B204143524F50484F4E49432054524F455A454E49414E2054454E20),
  (0x10161, 0x475245454B204143524F50484F4E49432054524F455A454E49414E2054454E20414C5445524E41544520464F524D20),
  (0x10162, 0x475245454B204143524F50484F4E4943204845524D494F4E49414E2054454E20),
  (0x10163, 0x475245454B204143524F50484F4E4943204D455353454E49414E2054454E20),
  (0x10164, 0x475245454B204143524F50484F4E494320544845535049414E2054454E20),
  (0x10165, 0x475245454B204143524F50484F4E494320544845535049414E2054484952545920),
  (0x10166, 0x475245454B204143524F50484F4E49432054524F455A454E49414E20464946545920),
  (0x10167, 0x475245454B204143524F50484F4E49432054524F455A454E49414E20464946545920414C5445524E41544520464F524D20),
  (0x10168, 0x475245454B204143524F50484F4E4943204845524D494F4E49414E20464946545920),
  (0x10169, 0x475245454B204143524F50484F4E494320544845535049414E20464946545920),
  (0x1016A, 0x475245454B204143524F50484F4E494320544845535049414E204F4E452048554E4452454420),
  (0x1016B, 0x475245454B204143524F50484F4E494320544845535049414E2054485245452048554E4452454420),
  (0x1016C, 0x475245454B204143524F50484F4E4943204550494441555245414E20464956452048554E4452454420),
  (0x1016D, 0x475245454B204143524F50484F4E49432054524F455A454E49414E20464956452048554E4452454420),
  (0x1016E, 0x475245454B204143524F50484F4E494320544845535049414E20464956452048554E4452454420),
  (0x1016F, 0x475245454B204143524F50484F4E49432043415259535449414E20464956452048554E4452454420),
  (0x10170, 0x475245454B204143524F50484F4E4943204E415849414E20464956452048554E4452454420),
  (0x10171, 0x475245454B204143524F50484F4E494320544845535049414E204F4E452054484F5553414E4420),
  (0x10172, 0x475245454B204143524F50484F4E494320544845535049414E20464956452054484F5553414E4420),
  (0x10173, 0x475245454B204143524F50484F4E49432044454C504849432046495645204D4E415320),
  (0x10174, 0x475245454B204143524F50484F4E494320535452415449414E204649465459204D4E415320),
  (0x10175, 0x475245454B204F4E452048414C46205349474E20),
  (0x10176, 0x475245454B204F4E452048414C46205349474E20414C5445524E41544520464F524D20),
  (0x10177, 0x475245454B2054574F20544849524453205349474E20),
  (0x10178, 0x475245454B205448524545205155415254455253205349474E20),
  (0x10179, 0x475245454B2059454152205349474E20),
  (0x1017A, 0x475245454B2054414C454E54205349474E20),
  (0x1017B, 0x475245454B2044524143484D41205349474E20)]
def names_263 : List (Nat × Nat) := [
  (0x1017C, 0x475245454B204F424F4C205349474E20),
  (0x1017D, 0x475245454B2054574F204F424F4C53205349474E20),
  (0x1017E, 0x475245454B205448524545204F424F4C53205349474E20),
  (0x1017F, 0x475245454B20464F5552204F424F4C53205349474E20),
  (0x10180, 0x475245454B2046495645204F424F4C53205349474E20),
  (0x10181, 0x475245454B204D45545245544553205349474E20),
  (0x10182, 0x475245454B204B594154484F532042415345205349474E20),
  (0x10183, 0x475245454B204C49545241205349474E20),
  (0x10184, 0x475245454B204F554E4B4941205349474E20),
  (0x10185, 0x475245454B20584553544553205349474E20),
  (0x10186, 0x475245454B20415254414245205349474E20),
  (0x10187, 0x475245454B2041524F555241205349474E20),
  (0x10188, 0x475245454B204752414D4D41205349474E20),
  (0x10189, 0x475245454B20545259424C494F4E2042415345205349474E20),
  (0x1018A, 0x475245454B205A45524F205349474E20),
  (0x1018B, 0x475245454B204F4E452051554152544552205349474E20),
  (0x1018C, 0x475245454B2053494E55534F4944205349474E20),
  (0x1018D, 0x475245454B20494E44494354494F4E205349474E20),
  (0x1018E, 0x4E4F4D49534D41205349474E20),
  (0x10190, 0x524F4D414E2053455854414E53205349474E20),
  (0x10191, 0x524F4D414E20554E434941205349474E20),
  (0x10192, 0x524F4D414E2053454D554E434941205349474E20),
  (0x10193, 0x524F4D414E2053455854554C41205349474E20),
  (0x10194, 0x524F4D414E2044494D494449412053455854554C41205349474E20),
  (0x10195, 0x524F4D414E2053494C49515541205349474E20),
  (0x10196, 0x524F4D414E2044454E4152495553205349474E20),
  (0x10197, 0x524F4D414E205155494E4152495553205349474E20),
  (0x10198, 0x524F4D414E2053455354455254495553205349474E20),
  (0x10199, 0x524F4D414E204455504F4E44495553205349474E20),
  (0x1019A, 0x524F4D414E204153205349474E20),
  (0x1019B, 0x524F4D414E2043454E54555249414C205349474E20),
  (0x101A0, 0x475245454B2053594D424F4C205441552052484F20),
  (0x101D0, 0x5048414953544F532044495343205349474E205045444553545249414E20),
  (0x101D1, 0x5048414953544F532044495343205349474E20504C554D4544204845414420),
  (0x101D2, 0x5048414953544F532044495343205349474E20544154544F4F4544204845414420),
  (0x101D3, 0x5048414953544F532044495343205349474E204341505449564520),
  (0x101D4, 0x5048414953544F532044495343205349474E204348494C4420),
  (0x101D5, 0x5048414953544F532044495343205349474E20574F4D414E20),
  (0x101D6, 0x5048414953544F532044495343205349474E2048454C4D455420),
  (0x101D7, 0x5048414953544F532044495343205349474E204741554E544C455420),
  (0x101D8, 0x5048414953544F532044495343205349474E20544941524120),
  (0x101D9, 0x5048414953544F532044495343205349474E204152524F5720),
  (0x101DA, 0x5048414953544F532044495343205349474E20424F5720),
  (0x101DB, 0x5048414953544F532044495343205349474E20534849454C4420),
  (0x101DC, 0x5048414953544F532044495343205349474E20434C554220),
  (0x101DD, 0x5048414953544F532044495343205349474E204D414E41434C455320),
  (0x101DE, 0x5048414953544F532044495343205349474E204D4154544F434B20),
  (0x101DF, 0x5048414953544F532044495343205349474E2053415720),
  (0x101E0, 0x5048414953544F532044495343205349474E204C494420),
  (0x101E1, 0x5048414953544F532044495343205349474E20424F4F4D4552414E4720),
  (0x101E2, 0x5048414953544F532044495343205349474E2043415250454E54525920504C414E4520),
  (0x101E3, 0x5048414953544F532044495343205349474E20444F4C49554D20),
  (0x101E4, 0x5048414953544F532044495343205349474E20434F4D4220),
  (0x101E5, 0x5048414953544F532044495343205349474E20534C494E4720),
  (0x101E6, 0x5048414953544F532044495343205349474E20434F4C554D4E20),
  (0x101E7, 0x5048414953544F532044495343205349474E204245454849564520),
  (0x101E8, 0x5048414953544F532044495343205349474E205348495020),
  (0x101E9, 0x5048414953544F532044495343205349474E20484F524E20),
  (0x101EA, 0x5048414953544F532044495343205349474E204849444520),
  (0x101EB, 0x5048414953544F532044495343205349474E2042554C4C53204C454720),
  (0x101EC, 0x5048414953544F532044495343205349474E2043415420),
  (0x101ED, 0x5048414953544F532044495343205349474E2052414D20),
  (0x101EE, 0x5048414953544F532044495343205349474E204541474C4520),
  (0x101EF, 0x5048414953544F532044495343205349474E20444F564520)]
def names_264 : List (Nat × Nat) := [
  (0x101F0, 0x5048414953544F532044495343205349474E2054554E4E5920),
  (0x101F1, 0x5048414953544F532044495343205349474E2042454520),
  (0x101F2, 0x5048414953544F532044495343205349474E20504C414E45205452454520),
  (0x101F3, 0x5048414953544F532044495343205349474E2056494E4520),
  (0x101F4, 0x5048414953544F532044495343205349474E205041505952555320),
  (0x101F5, 0x5048414953544F532044495343205349474E20524F534554544520),
  (0x101F6, 0x5048414953544F532044495343205349474E204C494C5920),
  (0x101F7, 0x5048414953544F532044495343205349474E204F58204241434B20),
  (0x101F8, 0x5048414953544F532044495343205349474E20464C55544520),
  (0x101F9, 0x5048414953544F532044495343205349474E2047524154455220),
  (0x101FA, 0x5048414953544F532044495343205349474E2053545241494E455220),
  (0x101FB, 0x5048414953544F532044495343205349474E20534D414C4C2041584520),
  (0x101FC, 0x5048414953544F532044495343205349474E20574156592042414E4420),
  (0x101FD, 0x5048414953544F532044495343205349474E20434F4D42494E494E47204F424C49515545205354524F4B4520),
  (0x10280, 0x4C594349414E204C4554544552204120),
  (0x10281, 0x4C594349414E204C4554544552204520),
  (0x10282, 0x4C594349414E204C4554544552204220),
  (0x10283, 0x4C594349414E204C455454455220424820),
  (0x10284, 0x4C594349414E204C4554544552204720),
  (0x10285, 0x4C594349414E204C4554544552204420),
  (0x10286, 0x4C594349414E204C4554544552204920),
  (0x10287, 0x4C594349414E204C4554544552205720),
  (0x10288, 0x4C594349414E204C4554544552205A20),
  (0x10289, 0x4C594349414E204C455454455220544820),
  (0x1028A, 0x4C594349414E204C4554544552204A20),
  (0x1028B, 0x4C594349414E204C4554544552204B20),
  (0x1028C, 0x4C594349414E204C4554544552205120),
  (0x1028D, 0x4C594349414E204C4554544552204C20),
  (0x1028E, 0x4C594349414E204C4554544552204D20),
  (0x1028F, 0x4C594349414E204C4554544552204E20),
  (0x10290, 0x4C594349414E204C4554544552204D4D20),
  (0x10291, 0x4C594349414E204C4554544552204E4E20),
  (0x10292, 0x4C594349414E204C4554544552205520),
  (0x10293, 0x4C594349414E204C4554544552205020),
  (0x10294, 0x4C594349414E204C4554544552204B4B20),
  (0x10295, 0x4C594349414E204C4554544552205220),
  (0x10296, 0x4C594349414E204C4554544552205320),
  (0x10297, 0x4C594349414E204C4554544552205420),
  (0x10298, 0x4C594349414E204C455454455220545420),
  (0x10299, 0x4C594349414E204C455454455220414E20),
  (0x1029A, 0x4C594349414E204C455454455220454E20),
  (0x1029B, 0x4C594349414E204C4554544552204820),
  (0x1029C, 0x4C594349414E204C4554544552205820),
  (0x102A0, 0x43415249414E204C4554544552204120),
  (0x102A1, 0x43415249414E204C455454455220503220),
  (0x102A2, 0x43415249414E204C4554544552204420),
  (0x102A3, 0x43415249414E204C4554544552204C20),
  (0x102A4, 0x43415249414E204C45545445522055555520),
  (0x102A5, 0x43415249414E204C4554544552205220),
  (0x102A6, 0x43415249414E204C4554544552204C4420),
  (0x102A7, 0x43415249414E204C455454455220413220),
  (0x102A8, 0x43415249414E204C4554544552205120),
  (0x102A9, 0x43415249414E204C4554544552204220),
  (0x102AA, 0x43415249414E204C4554544552204D20),
  (0x102AB, 0x43415249414E204C4554544552204F20),
  (0x102AC, 0x43415249414E204C455454455220443220),
  (0x102AD, 0x43415249414E204C4554544552205420),
  (0x102AE, 0x43415249414E204C455454455220534820),
  (0x102AF, 0x43415249414E204C45545445522053483220),
  (0x102B0, 0x43415249414E204C4554544552205320),
  (0x102B1, 0x43415249414E204C455454455220432D313820),
  (0x102B2, 0x43415249414E204C4554544552205520),
  (0x102B3, 0x43415249414E204C4554544552204E4E20),
  (0x102B4, 0x43415249414E204C4554544552205820)]
def names_265 : List (Nat × Nat) := [
  (0x102B5, 0x43415249414E204C4554544552204E20),
  (0x102B6, 0x43415249414E204C45545445522054543220),
  (0x102B7, 0x43415249414E204C4554544552205020),
  (0x102B8, 0x43415249414E204C455454455220535320),
  (0x102B9, 0x43415249414E204C4554544552204920),
  (0x102BA, 0x43415249414E204C4554544552204520),
  (0x102BB, 0x43415249414E204C4554544552205555555520),
  (0x102BC, 0x43415249414E204C4554544552204B20),
  (0x102BD, 0x43415249414E204C4554544552204B3220),
  (0x102BE, 0x43415249414E204C4554544552204E4420),
  (0x102BF, 0x43415249414E204C455454455220555520),
  (0x102C0, 0x43415249414E204C4554544552204720),
  (0x102C1, 0x43415249414E204C455454455220473220),
  (0x102C2, 0x43415249414E204C455454455220535420),
  (0x102C3, 0x43415249414E204C45545445522053543220),
  (0x102C4, 0x43415249414E204C4554544552204E4720),
  (0x102C5, 0x43415249414E204C455454455220494920),
  (0x102C6, 0x43415249414E204C455454455220432D333920),
  (0x102C7, 0x43415249414E204C455454455220545420),
  (0x102C8, 0x43415249414E204C4554544552205555553220),
  (0x102C9, 0x43415249414E204C455454455220525220),
  (0x102CA, 0x43415249414E204C4554544552204D4220),
  (0x102CB, 0x43415249414E204C4554544552204D423220),
  (0x102CC, 0x43415249414E204C4554544552204D423320),
  (0x102CD, 0x43415249414E204C4554544552204D423420),
  (0x102CE, 0x43415249414E204C4554544552204C443220),
  (0x102CF, 0x43415249414E204C455454455220453220),
  (0x102D0, 0x43415249414E204C4554544552205555553320),
  (0x102E0, 0x434F505449432045504143542054484F5553414E4453204D41524B20),
  (0x102E1, 0x434F50544943204550414354204449474954204F4E4520),
  (0x102E2, 0x434F505449432045504143542044494749542054574F20),
  (0x102E3, 0x434F5054494320455041435420444947495420544852454520),
  (0x102E4, 0x434F5054494320455041435420444947495420464F555220),
  (0x102E5, 0x434F50544943204550414354204449474954204649564520),
  (0x102E6, 0x434F505449432045504143542044494749542053495820),
  (0x102E7, 0x434F5054494320455041435420444947495420534556454E20),
  (0x102E8, 0x434F5054494320455041435420444947495420454947485420),
  (0x102E9, 0x434F50544943204550414354204449474954204E494E4520),
  (0x102EA, 0x434F50544943204550414354204E554D4245522054454E20),
  (0x102EB, 0x434F50544943204550414354204E554D424552205457454E545920),
  (0x102EC, 0x434F50544943204550414354204E554D4245522054484952545920),
  (0x102ED, 0x434F50544943204550414354204E554D42455220464F52545920),
  (0x102EE, 0x434F50544943204550414354204E554D42455220464946545920),
  (0x102EF, 0x434F50544943204550414354204E554D42455220534958545920),
  (0x102F0, 0x434F50544943204550414354204E554D42455220534556454E545920),
  (0x102F1, 0x434F50544943204550414354204E554D4245522045494748545920),
  (0x102F2, 0x434F50544943204550414354204E554D424552204E494E45545920),
  (0x102F3, 0x434F50544943204550414354204E554D424552204F4E452048554E4452454420),
  (0x102F4, 0x434F50544943204550414354204E554D4245522054574F2048554E4452454420),
  (0x102F5, 0x434F50544943204550414354204E554D4245522054485245452048554E4452454420),
  (0x102F6, 0x434F50544943204550414354204E554D42455220464F55522048554E4452454420),
  (0x102F7, 0x434F50544943204550414354204E554D42455220464956452048554E4452454420),
  (0x102F8, 0x434F50544943204550414354204E554D424552205349582048554E4452454420),
  (0x102F9, 0x434F50544943204550414354204E554D42455220534556454E2048554E4452454420),
  (0x102FA, 0x434F50544943204550414354204E554D4245522045494748542048554E4452454420),
  (0x102FB, 0x434F50544943204550414354204E554D424552204E494E452048554E4452454420),
  (0x10300, 0x4F4C44204954414C4943204C4554544552204120),
  (0x10301, 0x4F4C44204954414C4943204C455454455220424520),
  (0x10302, 0x4F4C44204954414C4943204C4554544552204B4520),
  (0x10303, 0x4F4C44204954414C4943204C455454455220444520),
  (0x10304, 0x4F4C44204954414C4943204C4554544552204520),
  (0x10305, 0x4F4C44204954414C4943204C455454455220564520),
  (0x10306, 0x4F4C44204954414C4943204C4554544552205A4520),
  (0x10307, 0x4F4C44204954414C4943204C455454455220484520)]
def names_266 : List (Nat × Nat) := [
  (0x10308, 0x4F4C44204954414C4943204C45545445522054484520),
  (0x10309, 0x4F4C44204954414C4943204C4554544552204920),
  (0x1030A, 0x4F4C44204954414C4943204C4554544552204B4120),
  (0x1030B, 0x4F4C44204954414C4943204C455454455220454C20),
  (0x1030C, 0x4F4C44204954414C4943204C455454455220454D20),
  (0x1030D, 0x4F4C44204954414C4943204C455454455220454E20),
  (0x1030E, 0x4F4C44204954414C4943204C45545445522045534820),
  (0x1030F, 0x4F4C44204954414C4943204C4554544552204F20),
  (0x10310, 0x4F4C44204954414C4943204C455454455220504520),
  (0x10311, 0x4F4C44204954414C4943204C45545445522053484520),
  (0x10312, 0x4F4C44204954414C4943204C4554544552204B5520),
  (0x10313, 0x4F4C44204954414C4943204C455454455220455220),
  (0x10314, 0x4F4C44204954414C4943204C455454455220455320),
  (0x10315, 0x4F4C44204954414C4943204C455454455220544520),
  (0x10316, 0x4F4C44204954414C4943204C4554544552205520),
  (0x10317, 0x4F4C44204954414C4943204C455454455220454B5320),
  (0x10318, 0x4F4C44204954414C4943204C45545445522050484520),
  (0x10319, 0x4F4C44204954414C4943204C4554544552204B484520),
  (0x1031A, 0x4F4C44204954414C4943204C455454455220454620),
  (0x1031B, 0x4F4C44204954414C4943204C45545445522045525320),
  (0x1031C, 0x4F4C44204954414C4943204C45545445522043484520),
  (0x1031D, 0x4F4C44204954414C4943204C455454455220494920),
  (0x1031E, 0x4F4C44204954414C4943204C455454455220555520),
  (0x1031F, 0x4F4C44204954414C4943204C45545445522045535320),
  (0x10320, 0x4F4C44204954414C4943204E554D4552414C204F4E4520),
  (0x10321, 0x4F4C44204954414C4943204E554D4552414C204649564520),
  (0x10322, 0x4F4C44204954414C4943204E554D4552414C2054454E20),
  (0x10323, 0x4F4C44204954414C4943204E554D4552414C20464946545920),
  (0x1032D, 0x4F4C44204954414C4943204C455454455220594520),
  (0x1032E, 0x4F4C44204954414C4943204C4554544552204E4F52544845524E2054534520),
  (0x1032F, 0x4F4C44204954414C4943204C455454455220534F55544845524E2054534520),
  (0x10330, 0x474F54484943204C4554544552204148534120),
  (0x10331, 0x474F54484943204C455454455220424149524B414E20),
  (0x10332, 0x474F54484943204C4554544552204749424120),
  (0x10333, 0x474F54484943204C4554544552204441475320),
  (0x10334, 0x474F54484943204C45545445522041494856555320),
  (0x10335, 0x474F54484943204C455454455220514149525448524120),
  (0x10336, 0x474F54484943204C45545445522049554A4120),
  (0x10337, 0x474F54484943204C4554544552204841474C20),
  (0x10338, 0x474F54484943204C45545445522054484955544820),
  (0x10339, 0x474F54484943204C45545445522045495320),
  (0x1033A, 0x474F54484943204C4554544552204B55534D4120),
  (0x1033B, 0x474F54484943204C4554544552204C4147555320),
  (0x1033C, 0x474F54484943204C4554544552204D414E4E4120),
  (0x1033D, 0x474F54484943204C4554544552204E415554485320),
  (0x1033E, 0x474F54484943204C4554544552204A455220),
  (0x1033F, 0x474F54484943204C4554544552205552555320),
  (0x10340, 0x474F54484943204C455454455220504149525448524120),
  (0x10341, 0x474F54484943204C4554544552204E494E45545920),
  (0x10342, 0x474F54484943204C455454455220524149444120),
  (0x10343, 0x474F54484943204C455454455220534155494C20),
  (0x10344, 0x474F54484943204C455454455220544549575320),
  (0x10345, 0x474F54484943204C45545445522057494E4A4120),
  (0x10346, 0x474F54484943204C455454455220464149485520),
  (0x10347, 0x474F54484943204C455454455220494747575320),
  (0x10348, 0x474F54484943204C455454455220485741495220),
  (0x10349, 0x474F54484943204C4554544552204F5448414C20),
  (0x1034A, 0x474F54484943204C4554544552204E494E452048554E4452454420),
  (0x10350, 0x4F4C44205045524D4943204C455454455220414E20),
  (0x10351, 0x4F4C44205045524D4943204C45545445522042555220),
  (0x10352, 0x4F4C44205045524D4943204C45545445522047414920),
  (0x10353, 0x4F4C44205045524D4943204C455454455220444F4920),
  (0x10354, 0x4F4C44205045524D4943204C4554544552204520),
  (0x10355, 0x4F4C44205045524D4943204C4554544552205A484F4920)]
def names_267 : List (Nat × Nat) := [
  (0x10356, 0x4F4C44205045524D4943204C455454455220445A484F4920),
  (0x10357, 0x4F4C44205045524D4943204C4554544552205A41544120),
  (0x10358, 0x4F4C44205045524D4943204C455454455220445A49544120),
  (0x10359, 0x4F4C44205045524D4943204C4554544552204920),
  (0x1035A, 0x4F4C44205045524D4943204C4554544552204B4F4B4520),
  (0x1035B, 0x4F4C44205045524D4943204C4554544552204C454920),
  (0x1035C, 0x4F4C44205045524D4943204C4554544552204D454E4F4520),
  (0x1035D, 0x4F4C44205045524D4943204C4554544552204E454E4F4520),
  (0x1035E, 0x4F4C44205045524D4943204C455454455220564F4F4920),
  (0x1035F, 0x4F4C44205045524D4943204C4554544552205045454920),
  (0x10360, 0x4F4C44205045524D4943204C45545445522052454920),
  (0x10361, 0x4F4C44205045524D4943204C45545445522053494920),
  (0x10362, 0x4F4C44205045524D4943204C45545445522054414920),
  (0x10363, 0x4F4C44205045524D4943204C4554544552205520),
  (0x10364, 0x4F4C44205045524D4943204C455454455220434845525920),
  (0x10365, 0x4F4C44205045524D4943204C45545445522053484F4F4920),
  (0x10366, 0x4F4C44205045524D4943204C455454455220534843484F4F4920),
  (0x10367, 0x4F4C44205045524D4943204C45545445522059525920),
  (0x10368, 0x4F4C44205045524D4943204C4554544552205945525520),
  (0x10369, 0x4F4C44205045524D4943204C4554544552204F20),
  (0x1036A, 0x4F4C44205045524D4943204C4554544552204F4F20),
  (0x1036B, 0x4F4C44205045524D4943204C455454455220454620),
  (0x1036C, 0x4F4C44205045524D4943204C455454455220484120),
  (0x1036D, 0x4F4C44205045524D4943204C4554544552205453495520),
  (0x1036E, 0x4F4C44205045524D4943204C45545445522056455220),
  (0x1036F, 0x4F4C44205045524D4943204C45545445522059455220),
  (0x10370, 0x4F4C44205045524D4943204C4554544552205945524920),
  (0x10371, 0x4F4C44205045524D4943204C45545445522059415420),
  (0x10372, 0x4F4C44205045524D4943204C455454455220494520),
  (0x10373, 0x4F4C44205045524D4943204C455454455220595520),
  (0x10374, 0x4F4C44205045524D4943204C455454455220594120),
  (0x10375, 0x4F4C44205045524D4943204C455454455220494120),
  (0x10376, 0x434F4D42494E494E47204F4C44205045524D4943204C455454455220414E20),
  (0x10377, 0x434F4D42494E494E47204F4C44205045524D4943204C455454455220444F4920),
  (0x10378, 0x434F4D42494E494E47204F4C44205045524D4943204C4554544552205A41544120),
  (0x10379, 0x434F4D42494E494E47204F4C44205045524D4943204C4554544552204E454E4F4520),
  (0x1037A, 0x434F4D42494E494E47204F4C44205045524D4943204C45545445522053494920),
  (0x10380, 0x5547415249544943204C455454455220414C504120),
  (0x10381, 0x5547415249544943204C4554544552204245544120),
  (0x10382, 0x5547415249544943204C45545445522047414D4C4120),
  (0x10383, 0x5547415249544943204C4554544552204B484120),
  (0x10384, 0x5547415249544943204C45545445522044454C544120),
  (0x10385, 0x5547415249544943204C455454455220484F20),
  (0x10386, 0x5547415249544943204C455454455220574F20),
  (0x10387, 0x5547415249544943204C4554544552205A45544120),
  (0x10388, 0x5547415249544943204C455454455220484F544120),
  (0x10389, 0x5547415249544943204C45545445522054455420),
  (0x1038A, 0x5547415249544943204C455454455220594F4420),
  (0x1038B, 0x5547415249544943204C4554544552204B414620),
  (0x1038C, 0x5547415249544943204C4554544552205348494E20),
  (0x1038D, 0x5547415249544943204C4554544552204C414D444120),
  (0x1038E, 0x5547415249544943204C4554544552204D454D20),
  (0x1038F, 0x5547415249544943204C4554544552204448414C20),
  (0x10390, 0x5547415249544943204C4554544552204E554E20),
  (0x10391, 0x5547415249544943204C4554544552205A5520),
  (0x10392, 0x5547415249544943204C45545445522053414D4B4120),
  (0x10393, 0x5547415249544943204C45545445522041494E20),
  (0x10394, 0x5547415249544943204C455454455220505520),
  (0x10395, 0x5547415249544943204C4554544552205341444520),
  (0x10396, 0x5547415249544943204C455454455220514F504120),
  (0x10397, 0x5547415249544943204C455454455220524153484120),
  (0x10398, 0x5547415249544943204C4554544552205448414E4E4120),
  (0x10399, 0x5547415249544943204C455454455220474841494E20),
  (0x1039A, 0x5547415249544943204C455454455220544F20)]
def names_268 : List (Nat × Nat) := [
  (0x1039B, 0x5547415249544943204C4554544552204920),
  (0x1039C, 0x5547415249544943204C4554544552205520),
  (0x1039D, 0x5547415249544943204C45545445522053535520),
  (0x1039F, 0x554741524954494320574F5244204449564944455220),
  (0x103A0, 0x4F4C44205045525349414E205349474E204120),
  (0x103A1, 0x4F4C44205045525349414E205349474E204920),
  (0x103A2, 0x4F4C44205045525349414E205349474E205520),
  (0x103A3, 0x4F4C44205045525349414E205349474E204B4120),
  (0x103A4, 0x4F4C44205045525349414E205349474E204B5520),
  (0x103A5, 0x4F4C44205045525349414E205349474E20474120),
  (0x103A6, 0x4F4C44205045525349414E205349474E20475520),
  (0x103A7, 0x4F4C44205045525349414E205349474E20584120),
  (0x103A8, 0x4F4C44205045525349414E205349474E20434120),
  (0x103A9, 0x4F4C44205045525349414E205349474E204A4120),
  (0x103AA, 0x4F4C44205045525349414E205349474E204A4920),
  (0x103AB, 0x4F4C44205045525349414E205349474E20544120),
  (0x103AC, 0x4F4C44205045525349414E205349474E20545520),
  (0x103AD, 0x4F4C44205045525349414E205349474E20444120),
  (0x103AE, 0x4F4C44205045525349414E205349474E20444920),
  (0x103AF, 0x4F4C44205045525349414E205349474E20445520),
  (0x103B0, 0x4F4C44205045525349414E205349474E2054484120),
  (0x103B1, 0x4F4C44205045525349414E205349474E20504120),
  (0x103B2, 0x4F4C44205045525349414E205349474E20424120),
  (0x103B3, 0x4F4C44205045525349414E205349474E20464120),
  (0x103B4, 0x4F4C44205045525349414E205349474E204E4120),
  (0x103B5, 0x4F4C44205045525349414E205349474E204E5520),
  (0x103B6, 0x4F4C44205045525349414E205349474E204D4120),
  (0x103B7, 0x4F4C44205045525349414E205349474E204D4920),
  (0x103B8, 0x4F4C44205045525349414E205349474E204D5520),
  (0x103B9, 0x4F4C44205045525349414E205349474E20594120),
  (0x103BA, 0x4F4C44205045525349414E205349474E20564120),
  (0x103BB, 0x4F4C44205045525349414E205349474E20564920),
  (0x103BC, 0x4F4C44205045525349414E205349474E20524120),
  (0x103BD, 0x4F4C44205045525349414E205349474E20525520),
  (0x103BE, 0x4F4C44205045525349414E205349474E204C4120),
  (0x103BF, 0x4F4C44205045525349414E205349474E20534120),
  (0x103C0, 0x4F4C44205045525349414E205349474E205A4120),
  (0x103C1, 0x4F4C44205045525349414E205349474E2053484120),
  (0x103C2, 0x4F4C44205045525349414E205349474E2053534120),
  (0x103C3, 0x4F4C44205045525349414E205349474E20484120),
  (0x103C8, 0x4F4C44205045525349414E205349474E20415552414D415A44414120),
  (0x103C9, 0x4F4C44205045525349414E205349474E20415552414D415A4441412D3220),
  (0x103CA, 0x4F4C44205045525349414E205349474E20415552414D415A444141484120),
  (0x103CB, 0x4F4C44205045525349414E205349474E2058534841415941544849594120),
  (0x103CC, 0x4F4C44205045525349414E205349474E2044414859414155534820),
  (0x103CD, 0x4F4C44205045525349414E205349474E204441485941415553482D3220),
  (0x103CE, 0x4F4C44205045525349414E205349474E204241474120),
  (0x103CF, 0x4F4C44205045525349414E205349474E204255554D49534820),
  (0x103D0, 0x4F4C44205045525349414E20574F5244204449564944455220),
  (0x103D1, 0x4F4C44205045525349414E204E554D424552204F4E4520),
  (0x103D2, 0x4F4C44205045525349414E204E554D4245522054574F20),
  (0x103D3, 0x4F4C44205045525349414E204E554D4245522054454E20),
  (0x103D4, 0x4F4C44205045525349414E204E554D424552205457454E545920),
  (0x103D5, 0x4F4C44205045525349414E204E554D4245522048554E4452454420),
  (0x10400, 0x44455345524554204341504954414C204C4554544552204C4F4E47204920),
  (0x10401, 0x44455345524554204341504954414C204C4554544552204C4F4E47204520),
  (0x10402, 0x44455345524554204341504954414C204C4554544552204C4F4E47204120),
  (0x10403, 0x44455345524554204341504954414C204C4554544552204C4F4E4720414820),
  (0x10404, 0x44455345524554204341504954414C204C4554544552204C4F4E47204F20),
  (0x10405, 0x44455345524554204341504954414C204C4554544552204C4F4E47204F4F20),
  (0x10406, 0x44455345524554204341504954414C204C45545445522053484F5254204920),
  (0x10407, 0x44455345524554204341504954414C204C45545445522053484F5254204520),
  (0x10408, 0x44455345524554204341504954414C204C45545445522053484F5254204120),
  (0x10409, 0x44455345524554204341504954414C204C45545445522053484F525420414820)]
def names_269 : List (Nat × Nat) := [
  (0x1040A, 0x44455345524554204341504954414C204C45545445522053484F5254204F20),
  (0x1040B, 0x44455345524554204341504954414C204C45545445522053484F5254204F4F20),
  (0x1040C, 0x44455345524554204341504954414C204C455454455220415920),
  (0x1040D, 0x44455345524554204341504954414C204C4554544552204F5720),
  (0x1040E, 0x44455345524554204341504954414C204C455454455220575520),
  (0x1040F, 0x44455345524554204341504954414C204C45545445522059454520),
  (0x10410, 0x44455345524554204341504954414C204C4554544552204820),
  (0x10411, 0x44455345524554204341504954414C204C45545445522050454520),
  (0x10412, 0x44455345524554204341504954414C204C45545445522042454520),
  (0x10413, 0x44455345524554204341504954414C204C45545445522054454520),
  (0x10414, 0x44455345524554204341504954414C204C45545445522044454520),
  (0x10415, 0x44455345524554204341504954414C204C4554544552204348454520),
  (0x10416, 0x44455345524554204341504954414C204C4554544552204A454520),
  (0x10417, 0x44455345524554204341504954414C204C4554544552204B415920),
  (0x10418, 0x44455345524554204341504954414C204C45545445522047415920),
  (0x10419, 0x44455345524554204341504954414C204C455454455220454620),
  (0x1041A, 0x44455345524554204341504954414C204C45545445522056454520),
  (0x1041B, 0x44455345524554204341504954414C204C45545445522045544820),
  (0x1041C, 0x44455345524554204341504954414C204C4554544552205448454520),
  (0x1041D, 0x44455345524554204341504954414C204C455454455220455320),
  (0x1041E, 0x44455345524554204341504954414C204C4554544552205A454520),
  (0x1041F, 0x44455345524554204341504954414C204C45545445522045534820),
  (0x10420, 0x44455345524554204341504954414C204C4554544552205A48454520),
  (0x10421, 0x44455345524554204341504954414C204C455454455220455220),
  (0x10422, 0x44455345524554204341504954414C204C455454455220454C20),
  (0x10423, 0x44455345524554204341504954414C204C455454455220454D20),
  (0x10424, 0x44455345524554204341504954414C204C455454455220454E20),
  (0x10425, 0x44455345524554204341504954414C204C455454455220454E4720),
  (0x10426, 0x44455345524554204341504954414C204C4554544552204F4920),
  (0x10427, 0x44455345524554204341504954414C204C455454455220455720),
  (0x10428, 0x4445534552455420534D414C4C204C4554544552204C4F4E47204920),
  (0x10429, 0x4445534552455420534D414C4C204C4554544552204C4F4E47204520),
  (0x1042A, 0x4445534552455420534D414C4C204C4554544552204C4F4E47204120),
  (0x1042B, 0x4445534552455420534D414C4C204C4554544552204C4F4E4720414820),
  (0x1042C, 0x4445534552455420534D414C4C204C4554544552204C4F4E47204F20),
  (0x1042D, 0x4445534552455420534D414C4C204C4554544552204C4F4E47204F4F20),
  (0x1042E, 0x4445534552455420534D414C4C204C45545445522053484F5254204920),
  (0x1042F, 0x4445534552455420534D414C4C204C45545445522053484F5254204520),
  (0x10430, 0x4445534552455420534D414C4C204C45545445522053484F5254204120),
  (0x10431, 0x4445534552455420534D414C4C204C45545445522053484F525420414820),
  (0x10432, 0x4445534552455420534D414C4C204C45545445522053484F5254204F20),
  (0x10433, 0x4445534552455420534D414C4C204C45545445522053484F5254204F4F20),
  (0x10434, 0x4445534552455420534D414C4C204C455454455220415920),
  (0x10435, 0x4445534552455420534D414C4C204C4554544552204F5720),
  (0x10436, 0x4445534552455420534D414C4C204C455454455220575520),
  (0x10437, 0x4445534552455420534D414C4C204C45545445522059454520),
  (0x10438, 0x4445534552455420534D414C4C204C4554544552204820),
  (0x10439, 0x4445534552455420534D414C4C204C45545445522050454520),
  (0x1043A, 0x4445534552455420534D414C4C204C45545445522042454520),
  (0x1043B, 0x4445534552455420534D414C4C204C45545445522054454520),
  (0x1043C, 0x4445534552455420534D414C4C204C45545445522044454520),
  (0x1043D, 0x4445534552455420534D414C4C204C4554544552204348454520),
  (0x1043E, 0x4445534552455420534D414C4C204C4554544552204A454520),
  (0x1043F, 0x4445534552455420534D414C4C204C4554544552204B415920),
  (0x10440, 0x4445534552455420534D414C4C204C45545445522047415920),
  (0x10441, 0x4445534552455420534D414C4C204C455454455220454620),
  (0x10442, 0x4445534552455420534D414C4C204C45545445522056454520),
  (0x10443, 0x4445534552455420534D414C4C204C45545445522045544820),
  (0x10444, 0x4445534552455420534D414C4C204C4554544552205448454520),
  (0x10445, 0x4445534552455420534D414C4C204C455454455220455320),
  (0x10446, 0x4445534552455420534D414C4C204C4554544552205A454520),
  (0x10447, 0x4445534552455420534D414C4C204C45545445522045534820),
  (0x10448, 0x4445534552455420534D414C4C204C4554544552205A48454520),
  (0x10449, 0x4445534552455420534D414C4C204C455454455220455220)]
def names_270 : List (Nat × Nat) := [
  (0x1044A, 0x4445534552455420534D414C4C204C455454455220454C20),
  (0x1044B, 0x4445534552455420534D414C4C204C455454455220454D20),
  (0x1044C, 0x4445534552455420534D414C4C204C455454455220454E20),
  (0x1044D, 0x4445534552455420534D414C4C204C455454455220454E4720),
  (0x1044E, 0x4445534552455420534D414C4C204C4554544552204F4920),
  (0x1044F, 0x4445534552455420534D414C4C204C455454455220455720),
  (0x10450, 0x5348415649414E204C4554544552205045455020),
  (0x10451, 0x5348415649414E204C455454455220544F5420),
  (0x10452, 0x5348415649414E204C4554544552204B49434B20),
  (0x10453, 0x5348415649414E204C45545445522046454520),
  (0x10454, 0x5348415649414E204C455454455220544849474820),
  (0x10455, 0x5348415649414E204C455454455220534F20),
  (0x10456, 0x5348415649414E204C4554544552205355524520),
  (0x10457, 0x5348415649414E204C45545445522043485552434820),
  (0x10458, 0x5348415649414E204C45545445522059454120),
  (0x10459, 0x5348415649414E204C45545445522048554E4720),
  (0x1045A, 0x5348415649414E204C45545445522042494220),
  (0x1045B, 0x5348415649414E204C4554544552204445414420),
  (0x1045C, 0x5348415649414E204C45545445522047414720),
  (0x1045D, 0x5348415649414E204C455454455220564F5720),
  (0x1045E, 0x5348415649414E204C4554544552205448455920),
  (0x1045F, 0x5348415649414E204C4554544552205A4F4F20),
  (0x10460, 0x5348415649414E204C4554544552204D45415355524520),
  (0x10461, 0x5348415649414E204C4554544552204A5544474520),
  (0x10462, 0x5348415649414E204C455454455220574F4520),
  (0x10463, 0x5348415649414E204C45545445522048412D484120),
  (0x10464, 0x5348415649414E204C4554544552204C4F4C4C20),
  (0x10465, 0x5348415649414E204C4554544552204D494D4520),
  (0x10466, 0x5348415649414E204C455454455220494620),
  (0x10467, 0x5348415649414E204C45545445522045474720),
  (0x10468, 0x5348415649414E204C45545445522041534820),
  (0x10469, 0x5348415649414E204C45545445522041444F20),
  (0x1046A, 0x5348415649414E204C4554544552204F4E20),
  (0x1046B, 0x5348415649414E204C455454455220574F4F4C20),
  (0x1046C, 0x5348415649414E204C4554544552204F555420),
  (0x1046D, 0x5348415649414E204C455454455220414820),
  (0x1046E, 0x5348415649414E204C455454455220524F415220),
  (0x1046F, 0x5348415649414E204C4554544552204E554E20),
  (0x10470, 0x5348415649414E204C45545445522045415420),
  (0x10471, 0x5348415649414E204C45545445522041474520),
  (0x10472, 0x5348415649414E204C45545445522049434520),
  (0x10473, 0x5348415649414E204C455454455220555020),
  (0x10474, 0x5348415649414E204C4554544552204F414B20),
  (0x10475, 0x5348415649414E204C4554544552204F4F5A4520),
  (0x10476, 0x5348415649414E204C4554544552204F494C20),
  (0x10477, 0x5348415649414E204C45545445522041574520),
  (0x10478, 0x5348415649414E204C45545445522041524520),
  (0x10479, 0x5348415649414E204C4554544552204F5220),
  (0x1047A, 0x5348415649414E204C45545445522041495220),
  (0x1047B, 0x5348415649414E204C45545445522045525220),
  (0x1047C, 0x5348415649414E204C455454455220415252415920),
  (0x1047D, 0x5348415649414E204C45545445522045415220),
  (0x1047E, 0x5348415649414E204C45545445522049414E20),
  (0x1047F, 0x5348415649414E204C45545445522059455720),
  (0x10480, 0x4F534D414E5941204C455454455220414C454620),
  (0x10481, 0x4F534D414E5941204C455454455220424120),
  (0x10482, 0x4F534D414E5941204C455454455220544120),
  (0x10483, 0x4F534D414E5941204C4554544552204A4120),
  (0x10484, 0x4F534D414E5941204C455454455220584120),
  (0x10485, 0x4F534D414E5941204C4554544552204B484120),
  (0x10486, 0x4F534D414E5941204C4554544552204445454C20),
  (0x10487, 0x4F534D414E5941204C455454455220524120),
  (0x10488, 0x4F534D414E5941204C455454455220534120),
  (0x10489, 0x4F534D414E5941204C455454455220534849494E20)]
def names_271 : List (Nat × Nat) := [
  (0x1048A, 0x4F534D414E5941204C45545445522044484120),
  (0x1048B, 0x4F534D414E5941204C4554544552204341594E20),
  (0x1048C, 0x4F534D414E5941204C455454455220474120),
  (0x1048D, 0x4F534D414E5941204C455454455220464120),
  (0x1048E, 0x4F534D414E5941204C4554544552205141414620),
  (0x1048F, 0x4F534D414E5941204C4554544552204B41414620),
  (0x10490, 0x4F534D414E5941204C4554544552204C41414E20),
  (0x10491, 0x4F534D414E5941204C4554544552204D49494E20),
  (0x10492, 0x4F534D414E5941204C4554544552204E55554E20),
  (0x10493, 0x4F534D414E5941204C45545445522057415720),
  (0x10494, 0x4F534D414E5941204C455454455220484120),
  (0x10495, 0x4F534D414E5941204C455454455220594120),
  (0x10496, 0x4F534D414E5941204C4554544552204120),
  (0x10497, 0x4F534D414E5941204C4554544552204520),
  (0x10498, 0x4F534D414E5941204C4554544552204920),
  (0x10499, 0x4F534D414E5941204C4554544552204F20),
  (0x1049A, 0x4F534D414E5941204C4554544552205520),
  (0x1049B, 0x4F534D414E5941204C455454455220414120),
  (0x1049C, 0x4F534D414E5941204C455454455220454520),
  (0x1049D, 0x4F534D414E5941204C4554544552204F4F20),
  (0x104A0, 0x4F534D414E5941204449474954205A45524F20),
  (0x104A1, 0x4F534D414E5941204449474954204F4E4520),
  (0x104A2, 0x4F534D414E59412044494749542054574F20),
  (0x104A3, 0x4F534D414E594120444947495420544852454520),
  (0x104A4, 0x4F534D414E594120444947495420464F555220),
  (0x104A5, 0x4F534D414E5941204449474954204649564520),
  (0x104A6, 0x4F534D414E59412044494749542053495820),
  (0x104A7, 0x4F534D414E594120444947495420534556454E20),
  (0x104A8, 0x4F534D414E594120444947495420454947485420),
  (0x104A9, 0x4F534D414E5941204449474954204E494E4520),
  (0x104B0, 0x4F53414745204341504954414C204C4554544552204120),
  (0x104B1, 0x4F53414745204341504954414C204C455454455220414920),
  (0x104B2, 0x4F53414745204341504954414C204C45545445522041494E20),
  (0x104B3, 0x4F53414745204341504954414C204C455454455220414820),
  (0x104B4, 0x4F53414745204341504954414C204C45545445522042524120),
  (0x104B5, 0x4F53414745204341504954414C204C45545445522043484120),
  (0x104B6, 0x4F53414745204341504954414C204C455454455220454843484120),
  (0x104B7, 0x4F53414745204341504954414C204C4554544552204520),
  (0x104B8, 0x4F53414745204341504954414C204C45545445522045494E20),
  (0x104B9, 0x4F53414745204341504954414C204C455454455220484120),
  (0x104BA, 0x4F53414745204341504954414C204C45545445522048594120),
  (0x104BB, 0x4F53414745204341504954414C204C4554544552204920),
  (0x104BC, 0x4F53414745204341504954414C204C4554544552204B4120),
  (0x104BD, 0x4F53414745204341504954414C204C45545445522045484B4120),
  (0x104BE, 0x4F53414745204341504954414C204C4554544552204B594120),
  (0x104BF, 0x4F53414745204341504954414C204C4554544552204C4120),
  (0x104C0, 0x4F53414745204341504954414C204C4554544552204D4120),
  (0x104C1, 0x4F53414745204341504954414C204C4554544552204E4120),
  (0x104C2, 0x4F53414745204341504954414C204C4554544552204F20),
  (0x104C3, 0x4F53414745204341504954414C204C4554544552204F494E20),
  (0x104C4, 0x4F53414745204341504954414C204C455454455220504120),
  (0x104C5, 0x4F53414745204341504954414C204C4554544552204548504120),
  (0x104C6, 0x4F53414745204341504954414C204C455454455220534120),
  (0x104C7, 0x4F53414745204341504954414C204C45545445522053484120),
  (0x104C8, 0x4F53414745204341504954414C204C455454455220544120),
  (0x104C9, 0x4F53414745204341504954414C204C4554544552204548544120),
  (0x104CA, 0x4F53414745204341504954414C204C45545445522054534120),
  (0x104CB, 0x4F53414745204341504954414C204C455454455220454854534120),
  (0x104CC, 0x4F53414745204341504954414C204C4554544552205453484120),
  (0x104CD, 0x4F53414745204341504954414C204C45545445522044484120),
  (0x104CE, 0x4F53414745204341504954414C204C4554544552205520),
  (0x104CF, 0x4F53414745204341504954414C204C455454455220574120),
  (0x104D0, 0x4F53414745204341504954414C204C4554544552204B484120),
  (0x104D1, 0x4F53414745204341504954414C204C45545445522047484120)]
def names_272 : List (Nat × Nat) := [
  (0x104D2, 0x4F53414745204341504954414C204C4554544552205A4120),
  (0x104D3, 0x4F53414745204341504954414C204C4554544552205A484120),
  (0x104D8, 0x4F5341474520534D414C4C204C4554544552204120),
  (0x104D9, 0x4F5341474520534D414C4C204C455454455220414920),
  (0x104DA, 0x4F5341474520534D414C4C204C45545445522041494E20),
  (0x104DB, 0x4F5341474520534D414C4C204C455454455220414820),
  (0x104DC, 0x4F5341474520534D414C4C204C45545445522042524120),
  (0x104DD, 0x4F5341474520534D414C4C204C45545445522043484120),
  (0x104DE, 0x4F5341474520534D414C4C204C455454455220454843484120),
  (0x104DF, 0x4F5341474520534D414C4C204C4554544552204520),
  (0x104E0, 0x4F5341474520534D414C4C204C45545445522045494E20),
  (0x104E1, 0x4F5341474520534D414C4C204C455454455220484120),
  (0x104E2, 0x4F5341474520534D414C4C204C45545445522048594120),
  (0x104E3, 0x4F5341474520534D414C4C204C4554544552204920),
  (0x104E4, 0x4F5341474520534D414C4C204C4554544552204B4120),
  (0x104E5, 0x4F5341474520534D414C4C204C45545445522045484B4120),
  (0x104E6, 0x4F5341474520534D414C4C204C4554544552204B594120),
  (0x104E7, 0x4F5341474520534D414C4C204C4554544552204C4120),
  (0x104E8, 0x4F5341474520534D414C4C204C4554544552204D4120),
  (0x104E9, 0x4F5341474520534D414C4C204C4554544552204E4120),
  (0x104EA, 0x4F5341474520534D414C4C204C4554544552204F20),
  (0x104EB, 0x4F5341474520534D414C4C204C4554544552204F494E20),
  (0x104EC, 0x4F5341474520534D414C4C204C455454455220504120),
  (0x104ED, 0x4F5341474520534D414C4C204C4554544552204548504120),
  (0x104EE, 0x4F5341474520534D414C4C204C455454455220534120),
  (0x104EF, 0x4F5341474520534D414C4C204C45545445522053484120),
  (0x104F0, 0x4F5341474520534D414C4C204C455454455220544120),
  (0x104F1, 0x4F5341474520534D414C4C204C4554544552204548544120),
  (0x104F2, 0x4F5341474520534D414C4C204C45545445522054534120),
  (0x104F3, 0x4F5341474520534D414C4C204C455454455220454854534120),
  (0x104F4, 0x4F5341474520534D414C4C204C4554544552205453484120),
  (0x104F5, 0x4F5341474520534D414C4C204C45545445522044484120),
  (0x104F6, 0x4F5341474520534D414C4C204C4554544552205520),
  (0x104F7, 0x4F5341474520534D414C4C204C455454455220574120),
  (0x104F8, 0x4F5341474520534D414C4C204C4554544552204B484120),
  (0x104F9, 0x4F5341474520534D414C4C204C45545445522047484120),
  (0x104FA, 0x4F5341474520534D414C4C204C4554544552205A4120),
  (0x104FB, 0x4F5341474520534D414C4C204C4554544552205A484120),
  (0x10500, 0x454C424153414E204C4554544552204120),
  (0x10501, 0x454C424153414E204C455454455220424520),
  (0x10502, 0x454C424153414E204C455454455220434520),
  (0x10503, 0x454C424153414E204C45545445522043484520),
  (0x10504, 0x454C424153414E204C455454455220444520),
  (0x10505, 0x454C424153414E204C4554544552204E444520),
  (0x10506, 0x454C424153414E204C45545445522044484520),
  (0x10507, 0x454C424153414E204C455454455220454920),
  (0x10508, 0x454C424153414E204C4554544552204520),
  (0x10509, 0x454C424153414E204C455454455220464520),
  (0x1050A, 0x454C424153414E204C455454455220474520),
  (0x1050B, 0x454C424153414E204C455454455220474A4520),
  (0x1050C, 0x454C424153414E204C455454455220484520),
  (0x1050D, 0x454C424153414E204C4554544552204920),
  (0x1050E, 0x454C424153414E204C4554544552204A4520),
  (0x1050F, 0x454C424153414E204C4554544552204B4520),
  (0x10510, 0x454C424153414E204C4554544552204C4520),
  (0x10511, 0x454C424153414E204C4554544552204C4C4520),
  (0x10512, 0x454C424153414E204C4554544552204D4520),
  (0x10513, 0x454C424153414E204C4554544552204E4520),
  (0x10514, 0x454C424153414E204C4554544552204E4120),
  (0x10515, 0x454C424153414E204C4554544552204E4A4520),
  (0x10516, 0x454C424153414E204C4554544552204F20),
  (0x10517, 0x454C424153414E204C455454455220504520),
  (0x10518, 0x454C424153414E204C455454455220514520),
  (0x10519, 0x454C424153414E204C455454455220524520)]
def names_273 : List (Nat × Nat) := [
  (0x1051A, 0x454C424153414E204C45545445522052524520),
  (0x1051B, 0x454C424153414E204C455454455220534520),
  (0x1051C, 0x454C424153414E204C45545445522053484520),
  (0x1051D, 0x454C424153414E204C455454455220544520),
  (0x1051E, 0x454C424153414E204C45545445522054484520),
  (0x1051F, 0x454C424153414E204C4554544552205520),
  (0x10520, 0x454C424153414E204C455454455220564520),
  (0x10521, 0x454C424153414E204C455454455220584520),
  (0x10522, 0x454C424153414E204C4554544552205920),
  (0x10523, 0x454C424153414E204C4554544552205A4520),
  (0x10524, 0x454C424153414E204C4554544552205A484520),
  (0x10525, 0x454C424153414E204C45545445522047484520),
  (0x10526, 0x454C424153414E204C4554544552204748414D4D4120),
  (0x10527, 0x454C424153414E204C4554544552204B484520),
  (0x10530, 0x43415543415349414E20414C42414E49414E204C455454455220414C5420),
  (0x10531, 0x43415543415349414E20414C42414E49414E204C45545445522042455420),
  (0x10532, 0x43415543415349414E20414C42414E49414E204C45545445522047494D20),
  (0x10533, 0x43415543415349414E20414C42414E49414E204C45545445522044415420),
  (0x10534, 0x43415543415349414E20414C42414E49414E204C455454455220454220),
  (0x10535, 0x43415543415349414E20414C42414E49414E204C4554544552205A41524C20),
  (0x10536, 0x43415543415349414E20414C42414E49414E204C45545445522045594E20),
  (0x10537, 0x43415543415349414E20414C42414E49414E204C4554544552205A48494C20),
  (0x10538, 0x43415543415349414E20414C42414E49414E204C45545445522054415320),
  (0x10539, 0x43415543415349414E20414C42414E49414E204C45545445522043484120),
  (0x1053A, 0x43415543415349414E20414C42414E49414E204C455454455220594F574420),
  (0x1053B, 0x43415543415349414E20414C42414E49414E204C4554544552205A484120),
  (0x1053C, 0x43415543415349414E20414C42414E49414E204C45545445522049524220),
  (0x1053D, 0x43415543415349414E20414C42414E49414E204C45545445522053484120),
  (0x1053E, 0x43415543415349414E20414C42414E49414E204C4554544552204C414E20),
  (0x1053F, 0x43415543415349414E20414C42414E49414E204C455454455220494E594120),
  (0x10540, 0x43415543415349414E20414C42414E49414E204C4554544552205845594E20),
  (0x10541, 0x43415543415349414E20414C42414E49414E204C4554544552204459414E20),
  (0x10542, 0x43415543415349414E20414C42414E49414E204C45545445522043415220),
  (0x10543, 0x43415543415349414E20414C42414E49414E204C4554544552204A484F5820),
  (0x10544, 0x43415543415349414E20414C42414E49414E204C4554544552204B415220),
  (0x10545, 0x43415543415349414E20414C42414E49414E204C4554544552204C59495420),
  (0x10546, 0x43415543415349414E20414C42414E49414E204C4554544552204845595420),
  (0x10547, 0x43415543415349414E20414C42414E49414E204C45545445522051415920),
  (0x10548, 0x43415543415349414E20414C42414E49414E204C455454455220414F5220),
  (0x10549, 0x43415543415349414E20414C42414E49414E204C45545445522043484F5920),
  (0x1054A, 0x43415543415349414E20414C42414E49414E204C45545445522043484920),
  (0x1054B, 0x43415543415349414E20414C42414E49414E204C4554544552204359415920),
  (0x1054C, 0x43415543415349414E20414C42414E49414E204C4554544552204D415120),
  (0x1054D, 0x43415543415349414E20414C42414E49414E204C45545445522051415220),
  (0x1054E, 0x43415543415349414E20414C42414E49414E204C4554544552204E4F574320),
  (0x1054F, 0x43415543415349414E20414C42414E49414E204C455454455220445A59415920),
  (0x10550, 0x43415543415349414E20414C42414E49414E204C4554544552205348414B20),
  (0x10551, 0x43415543415349414E20414C42414E49414E204C4554544552204A41594E20),
  (0x10552, 0x43415543415349414E20414C42414E49414E204C4554544552204F4E20),
  (0x10553, 0x43415543415349414E20414C42414E49414E204C4554544552205459415920),
  (0x10554, 0x43415543415349414E20414C42414E49414E204C45545445522046414D20),
  (0x10555, 0x43415543415349414E20414C42414E49414E204C455454455220445A415920),
  (0x10556, 0x43415543415349414E20414C42414E49414E204C4554544552204348415420),
  (0x10557, 0x43415543415349414E20414C42414E49414E204C45545445522050454E20),
  (0x10558, 0x43415543415349414E20414C42414E49414E204C455454455220474845595320),
  (0x10559, 0x43415543415349414E20414C42414E49414E204C45545445522052415420),
  (0x1055A, 0x43415543415349414E20414C42414E49414E204C4554544552205345594B20),
  (0x1055B, 0x43415543415349414E20414C42414E49414E204C4554544552205645595A20),
  (0x1055C, 0x43415543415349414E20414C42414E49414E204C4554544552205449575220),
  (0x1055D, 0x43415543415349414E20414C42414E49414E204C45545445522053484F5920),
  (0x1055E, 0x43415543415349414E20414C42414E49414E204C45545445522049574E20),
  (0x1055F, 0x43415543415349414E20414C42414E49414E204C4554544552204359415720),
  (0x10560, 0x43415543415349414E20414C42414E49414E204C4554544552204341594E20),
  (0x10561, 0x43415543415349414E20414C42414E49414E204C4554544552205941594420)]
def names_274 : List (Nat × Nat) := [
  (0x10562, 0x43415543415349414E20414C42414E49414E204C4554544552205049575220),
  (0x10563, 0x43415543415349414E20414C42414E49414E204C4554544552204B495720),
  (0x1056F, 0x43415543415349414E20414C42414E49414E204349544154494F4E204D41524B20),
  (0x10600, 0x4C494E4541522041205349474E20414230303120),
  (0x10601, 0x4C494E4541522041205349474E20414230303220),
  (0x10602, 0x4C494E4541522041205349474E20414230303320),
  (0x10603, 0x4C494E4541522041205349474E20414230303420),
  (0x10604, 0x4C494E4541522041205349474E20414230303520),
  (0x10605, 0x4C494E4541522041205349474E20414230303620),
  (0x10606, 0x4C494E4541522041205349474E20414230303720),
  (0x10607, 0x4C494E4541522041205349474E20414230303820),
  (0x10608, 0x4C494E4541522041205349474E20414230303920),
  (0x10609, 0x4C494E4541522041205349474E20414230313020),
  (0x1060A, 0x4C494E4541522041205349474E20414230313120),
  (0x1060B, 0x4C494E4541522041205349474E20414230313320),
  (0x1060C, 0x4C494E4541522041205349474E20414230313620),
  (0x1060D, 0x4C494E4541522041205349474E20414230313720),
  (0x1060E, 0x4C494E4541522041205349474E20414230323020),
  (0x1060F, 0x4C494E4541522041205349474E20414230323120),
  (0x10610, 0x4C494E4541522041205349474E2041423032314620),
  (0x10611, 0x4C494E4541522041205349474E2041423032314D20),
  (0x10612, 0x4C494E4541522041205349474E20414230323220),
  (0x10613, 0x4C494E4541522041205349474E2041423032324620),
  (0x10614, 0x4C494E4541522041205349474E2041423032324D20),
  (0x10615, 0x4C494E4541522041205349474E20414230323320),
  (0x10616, 0x4C494E4541522041205349474E2041423032334D20),
  (0x10617, 0x4C494E4541522041205349474E20414230323420),
  (0x10618, 0x4C494E4541522041205349474E20414230323620),
  (0x10619, 0x4C494E4541522041205349474E20414230323720),
  (0x1061A, 0x4C494E4541522041205349474E20414230323820),
  (0x1061B, 0x4C494E4541522041205349474E20413032384220),
  (0x1061C, 0x4C494E4541522041205349474E20414230323920),
  (0x1061D, 0x4C494E4541522041205349474E20414230333020),
  (0x1061E, 0x4C494E4541522041205349474E20414230333120),
  (0x1061F, 0x4C494E4541522041205349474E20414230333420),
  (0x10620, 0x4C494E4541522041205349474E20414230333720),
  (0x10621, 0x4C494E4541522041205349474E20414230333820),
  (0x10622, 0x4C494E4541522041205349474E20414230333920),
  (0x10623, 0x4C494E4541522041205349474E20414230343020),
  (0x10624, 0x4C494E4541522041205349474E20414230343120),
  (0x10625, 0x4C494E4541522041205349474E20414230343420),
  (0x10626, 0x4C494E4541522041205349474E20414230343520),
  (0x10627, 0x4C494E4541522041205349474E20414230343620),
  (0x10628, 0x4C494E4541522041205349474E20414230343720),
  (0x10629, 0x4C494E4541522041205349474E20414230343820),
  (0x1062A, 0x4C494E4541522041205349474E20414230343920),
  (0x1062B, 0x4C494E4541522041205349474E20414230353020),
  (0x1062C, 0x4C494E4541522041205349474E20414230353120),
  (0x1062D, 0x4C494E4541522041205349474E20414230353320),
  (0x1062E, 0x4C494E4541522041205349474E20414230353420),
  (0x1062F, 0x4C494E4541522041205349474E20414230353520),
  (0x10630, 0x4C494E4541522041205349474E20414230353620),
  (0x10631, 0x4C494E4541522041205349474E20414230353720),
  (0x10632, 0x4C494E4541522041205349474E20414230353820),
  (0x10633, 0x4C494E4541522041205349474E20414230353920),
  (0x10634, 0x4C494E4541522041205349474E20414230363020),
  (0x10635, 0x4C494E4541522041205349474E20414230363120),
  (0x10636, 0x4C494E4541522041205349474E20414230363520),
  (0x10637, 0x4C494E4541522041205349474E20414230363620),
  (0x10638, 0x4C494E4541522041205349474E20414230363720),
  (0x10639, 0x4C494E4541522041205349474E20414230363920),
  (0x1063A, 0x4C494E4541522041205349474E20414230373020),
  (0x1063B, 0x4C494E4541522041205349474E20414230373320),
  (0x1063C, 0x4C494E4541522041205349474E20414230373420)]
def names_275 : List (Nat × Nat) := [
  (0x1063D, 0x4C494E4541522041205349474E20414230373620),
  (0x1063E, 0x4C494E4541522041205349474E20414230373720),
  (0x1063F, 0x4C494E4541522041205349474E20414230373820),
  (0x10640, 0x4C494E4541522041205349474E20414230373920),
  (0x10641, 0x4C494E4541522041205349474E20414230383020),
  (0x10642, 0x4C494E4541522041205349474E20414230383120),
  (0x10643, 0x4C494E4541522041205349474E20414230383220),
  (0x10644, 0x4C494E4541522041205349474E20414230383520),
  (0x10645, 0x4C494E4541522041205349474E20414230383620),
  (0x10646, 0x4C494E4541522041205349474E20414230383720),
  (0x10647, 0x4C494E4541522041205349474E20413130302D31303220),
  (0x10648, 0x4C494E4541522041205349474E20414231313820),
  (0x10649, 0x4C494E4541522041205349474E20414231323020),
  (0x1064A, 0x4C494E4541522041205349474E20413132304220),
  (0x1064B, 0x4C494E4541522041205349474E20414231323220),
  (0x1064C, 0x4C494E4541522041205349474E20414231323320),
  (0x1064D, 0x4C494E4541522041205349474E2041423133314120),
  (0x1064E, 0x4C494E4541522041205349474E2041423133314220),
  (0x1064F, 0x4C494E4541522041205349474E20413133314320),
  (0x10650, 0x4C494E4541522041205349474E20414231363420),
  (0x10651, 0x4C494E4541522041205349474E20414231373120),
  (0x10652, 0x4C494E4541522041205349474E20414231383020),
  (0x10653, 0x4C494E4541522041205349474E20414231383820),
  (0x10654, 0x4C494E4541522041205349474E20414231393120),
  (0x10655, 0x4C494E4541522041205349474E204133303120),
  (0x10656, 0x4C494E4541522041205349474E204133303220),
  (0x10657, 0x4C494E4541522041205349474E204133303320),
  (0x10658, 0x4C494E4541522041205349474E204133303420),
  (0x10659, 0x4C494E4541522041205349474E204133303520),
  (0x1065A, 0x4C494E4541522041205349474E204133303620),
  (0x1065B, 0x4C494E4541522041205349474E204133303720),
  (0x1065C, 0x4C494E4541522041205349474E204133303820),
  (0x1065D, 0x4C494E4541522041205349474E20413330394120),
  (0x1065E, 0x4C494E4541522041205349474E20413330394220),
  (0x1065F, 0x4C494E4541522041205349474E20413330394320),
  (0x10660, 0x4C494E4541522041205349474E204133313020),
  (0x10661, 0x4C494E4541522041205349474E204133313120),
  (0x10662, 0x4C494E4541522041205349474E204133313220),
  (0x10663, 0x4C494E4541522041205349474E20413331334120),
  (0x10664, 0x4C494E4541522041205349474E20413331334220),
  (0x10665, 0x4C494E4541522041205349474E20413331334320),
  (0x10666, 0x4C494E4541522041205349474E204133313420),
  (0x10667, 0x4C494E4541522041205349474E204133313520),
  (0x10668, 0x4C494E4541522041205349474E204133313620),
  (0x10669, 0x4C494E4541522041205349474E204133313720),
  (0x1066A, 0x4C494E4541522041205349474E204133313820),
  (0x1066B, 0x4C494E4541522041205349474E204133313920),
  (0x1066C, 0x4C494E4541522041205349474E204133323020),
  (0x1066D, 0x4C494E4541522041205349474E204133323120),
  (0x1066E, 0x4C494E4541522041205349474E204133323220),
  (0x1066F, 0x4C494E4541522041205349474E204133323320),
  (0x10670, 0x4C494E4541522041205349474E204133323420),
  (0x10671, 0x4C494E4541522041205349474E204133323520),
  (0x10672, 0x4C494E4541522041205349474E204133323620),
  (0x10673, 0x4C494E4541522041205349474E204133323720),
  (0x10674, 0x4C494E4541522041205349474E204133323820),
  (0x10675, 0x4C494E4541522041205349474E204133323920),
  (0x10676, 0x4C494E4541522041205349474E204133333020),
  (0x10677, 0x4C494E4541522041205349474E204133333120),
  (0x10678, 0x4C494E4541522041205349474E204133333220),
  (0x10679, 0x4C494E4541522041205349474E204133333320),
  (0x1067A, 0x4C494E4541522041205349474E204133333420),
  (0x1067B, 0x4C494E4541522041205349474E204133333520),
  (0x1067C, 0x4C494E4541522041205349474E204133333620)]
def names_276 : List (Nat × Nat) := [
  (0x1067D, 0x4C494E4541522041205349474E204133333720),
  (0x1067E, 0x4C494E4541522041205349474E204133333820),
  (0x1067F, 0x4C494E4541522041205349474E204133333920),
  (0x10680, 0x4C494E4541522041205349474E204133343020),
  (0x10681, 0x4C494E4541522041205349474E204133343120),
  (0x10682, 0x4C494E4541522041205349474E204133343220),
  (0x10683, 0x4C494E4541522041205349474E204133343320),
  (0x10684, 0x4C494E4541522041205349474E204133343420),
  (0x10685, 0x4C494E4541522041205349474E204133343520),
  (0x10686, 0x4C494E4541522041205349474E204133343620),
  (0x10687, 0x4C494E4541522041205349474E204133343720),
  (0x10688, 0x4C494E4541522041205349474E204133343820),
  (0x10689, 0x4C494E4541522041205349474E204133343920),
  (0x1068A, 0x4C494E4541522041205349474E204133353020),
  (0x1068B, 0x4C494E4541522041205349474E204133353120),
  (0x1068C, 0x4C494E4541522041205349474E204133353220),
  (0x1068D, 0x4C494E4541522041205349474E204133353320),
  (0x1068E, 0x4C494E4541522041205349474E204133353420),
  (0x1068F, 0x4C494E4541522041205349474E204133353520),
  (0x10690, 0x4C494E4541522041205349474E204133353620),
  (0x10691, 0x4C494E4541522041205349474E204133353720),
  (0x10692, 0x4C494E4541522041205349474E204133353820),
  (0x10693, 0x4C494E4541522041205349474E204133353920),
  (0x10694, 0x4C494E4541522041205349474E204133363020),
  (0x10695, 0x4C494E4541522041205349474E204133363120),
  (0x10696, 0x4C494E4541522041205349474E204133363220),
  (0x10697, 0x4C494E4541522041205349474E204133363320),
  (0x10698, 0x4C494E4541522041205349474E204133363420),
  (0x10699, 0x4C494E4541522041205349474E204133363520),
  (0x1069A, 0x4C494E4541522041205349474E204133363620),
  (0x1069B, 0x4C494E4541522041205349474E204133363720),
  (0x1069C, 0x4C494E4541522041205349474E204133363820),
  (0x1069D, 0x4C494E4541522041205349474E204133363920),
  (0x1069E, 0x4C494E4541522041205349474E204133373020),
  (0x1069F, 0x4C494E4541522041205349474E204133373120),
  (0x106A0, 0x4C494E4541522041205349474E20413430302D56415320),
  (0x106A1, 0x4C494E4541522041205349474E20413430312D56415320),
  (0x106A2, 0x4C494E4541522041205349474E20413430322D56415320),
  (0x106A3, 0x4C494E4541522041205349474E20413430332D56415320),
  (0x106A4, 0x4C494E4541522041205349474E20413430342D56415320),
  (0x106A5, 0x4C494E4541522041205349474E20413430352D56415320),
  (0x106A6, 0x4C494E4541522041205349474E20413430362D56415320),
  (0x106A7, 0x4C494E4541522041205349474E20413430372D56415320),
  (0x106A8, 0x4C494E4541522041205349474E20413430382D56415320),
  (0x106A9, 0x4C494E4541522041205349474E20413430392D56415320),
  (0x106AA, 0x4C494E4541522041205349474E20413431302D56415320),
  (0x106AB, 0x4C494E4541522041205349474E20413431312D56415320),
  (0x106AC, 0x4C494E4541522041205349474E20413431322D56415320),
  (0x106AD, 0x4C494E4541522041205349474E20413431332D56415320),
  (0x106AE, 0x4C494E4541522041205349474E20413431342D56415320),
  (0x106AF, 0x4C494E4541522041205349474E20413431352D56415320),
  (0x106B0, 0x4C494E4541522041205349474E20413431362D56415320),
  (0x106B1, 0x4C494E4541522041205349474E20413431372D56415320),
  (0x106B2, 0x4C494E4541522041205349474E20413431382D56415320),
  (0x106B3, 0x4C494E4541522041205349474E204135303120),
  (0x106B4, 0x4C494E4541522041205349474E204135303220),
  (0x106B5, 0x4C494E4541522041205349474E204135303320),
  (0x106B6, 0x4C494E4541522041205349474E204135303420),
  (0x106B7, 0x4C494E4541522041205349474E204135303520),
  (0x106B8, 0x4C494E4541522041205349474E204135303620),
  (0x106B9, 0x4C494E4541522041205349474E204135303820),
  (0x106BA, 0x4C494E4541522041205349474E204135303920),
  (0x106BB, 0x4C494E4541522041205349474E204135313020),
  (0x106BC, 0x4C494E4541522041205349474E204135313120)]
def names_277 : List (Nat × Nat) := [
  (0x106BD, 0x4C494E4541522041205349474E204135313220),
  (0x106BE, 0x4C494E4541522041205349474E204135313320),
  (0x106BF, 0x4C494E4541522041205349474E204135313520),
  (0x106C0, 0x4C494E4541522041205349474E204135313620),
  (0x106C1, 0x4C494E4541522041205349474E204135323020),
  (0x106C2, 0x4C494E4541522041205349474E204135323120),
  (0x106C3, 0x4C494E4541522041205349474E204135323320),
  (0x106C4, 0x4C494E4541522041205349474E204135323420),
  (0x106C5, 0x4C494E4541522041205349474E204135323520),
  (0x106C6, 0x4C494E4541522041205349474E204135323620),
  (0x106C7, 0x4C494E4541522041205349474E204135323720),
  (0x106C8, 0x4C494E4541522041205349474E204135323820),
  (0x106C9, 0x4C494E4541522041205349474E204135323920),
  (0x106CA, 0x4C494E4541522041205349474E204135333020),
  (0x106CB, 0x4C494E4541522041205349474E204135333120),
  (0x106CC, 0x4C494E4541522041205349474E204135333220),
  (0x106CD, 0x4C494E4541522041205349474E204135333420),
  (0x106CE, 0x4C494E4541522041205349474E204135333520),
  (0x106CF, 0x4C494E4541522041205349474E204135333620),
  (0x106D0, 0x4C494E4541522041205349474E204135333720),
  (0x106D1, 0x4C494E4541522041205349474E204135333820),
  (0x106D2, 0x4C494E4541522041205349474E204135333920),
  (0x106D3, 0x4C494E4541522041205349474E204135343020),
  (0x106D4, 0x4C494E4541522041205349474E204135343120),
  (0x106D5, 0x4C494E4541522041205349474E204135343220),
  (0x106D6, 0x4C494E4541522041205349474E204135343520),
  (0x106D7, 0x4C494E4541522041205349474E204135343720),
  (0x106D8, 0x4C494E4541522041205349474E204135343820),
  (0x106D9, 0x4C494E4541522041205349474E204135343920),
  (0x106DA, 0x4C494E4541522041205349474E204135353020),
  (0x106DB, 0x4C494E4541522041205349474E204135353120),
  (0x106DC, 0x4C494E4541522041205349474E204135353220),
  (0x106DD, 0x4C494E4541522041205349474E204135353320),
  (0x106DE, 0x4C494E4541522041205349474E204135353420),
  (0x106DF, 0x4C494E4541522041205349474E204135353520),
  (0x106E0, 0x4C494E4541522041205349474E204135353620),
  (0x106E1, 0x4C494E4541522041205349474E204135353720),
  (0x106E2, 0x4C494E4541522041205349474E204135353920),
  (0x106E3, 0x4C494E4541522041205349474E204135363320),
  (0x106E4, 0x4C494E4541522041205349474E204135363420),
  (0x106E5, 0x4C494E4541522041205349474E204135363520),
  (0x106E6, 0x4C494E4541522041205349474E204135363620),
  (0x106E7, 0x4C494E4541522041205349474E204135363820),
  (0x106E8, 0x4C494E4541522041205349474E204135363920),
  (0x106E9, 0x4C494E4541522041205349474E204135373020),
  (0x106EA, 0x4C494E4541522041205349474E204135373120),
  (0x106EB, 0x4C494E4541522041205349474E204135373220),
  (0x106EC, 0x4C494E4541522041205349474E204135373320),
  (0x106ED, 0x4C494E4541522041205349474E204135373420),
  (0x106EE, 0x4C494E4541522041205349474E204135373520),
  (0x106EF, 0x4C494E4541522041205349474E204135373620),
  (0x106F0, 0x4C494E4541522041205349474E204135373720),
  (0x106F1, 0x4C494E4541522041205349474E204135373820),
  (0x106F2, 0x4C494E4541522041205349474E204135373920),
  (0x106F3, 0x4C494E4541522041205349474E204135383020),
  (0x106F4, 0x4C494E4541522041205349474E204135383120),
  (0x106F5, 0x4C494E4541522041205349474E204135383220),
  (0x106F6, 0x4C494E4541522041205349474E204135383320),
  (0x106F7, 0x4C494E4541522041205349474E204135383420),
  (0x106F8, 0x4C494E4541522041205349474E204135383520),
  (0x106F9, 0x4C494E4541522041205349474E204135383620),
  (0x106FA, 0x4C494E4541522041205349474E204135383720),
  (0x106FB, 0x4C494E4541522041205349474E204135383820),
  (0x106FC, 0x4C494E4541522041205349474E204135383920)]
def names_278 : List (Nat × Nat) := [
  (0x106FD, 0x4C494E4541522041205349474E204135393120),
  (0x106FE, 0x4C494E4541522041205349474E204135393220),
  (0x106FF, 0x4C494E4541522041205349474E204135393420),
  (0x10700, 0x4C494E4541522041205349474E204135393520),
  (0x10701, 0x4C494E4541522041205349474E204135393620),
  (0x10702, 0x4C494E4541522041205349474E204135393820),
  (0x10703, 0x4C494E4541522041205349474E204136303020),
  (0x10704, 0x4C494E4541522041205349474E204136303120),
  (0x10705, 0x4C494E4541522041205349474E204136303220),
  (0x10706, 0x4C494E4541522041205349474E204136303320),
  (0x10707, 0x4C494E4541522041205349474E204136303420),
  (0x10708, 0x4C494E4541522041205349474E204136303620),
  (0x10709, 0x4C494E4541522041205349474E204136303820),
  (0x1070A, 0x4C494E4541522041205349474E204136303920),
  (0x1070B, 0x4C494E4541522041205349474E204136313020),
  (0x1070C, 0x4C494E4541522041205349474E204136313120),
  (0x1070D, 0x4C494E4541522041205349474E204136313220),
  (0x1070E, 0x4C494E4541522041205349474E204136313320),
  (0x1070F, 0x4C494E4541522041205349474E204136313420),
  (0x10710, 0x4C494E4541522041205349474E204136313520),
  (0x10711, 0x4C494E4541522041205349474E204136313620),
  (0x10712, 0x4C494E4541522041205349474E204136313720),
  (0x10713, 0x4C494E4541522041205349474E204136313820),
  (0x10714, 0x4C494E4541522041205349474E204136313920),
  (0x10715, 0x4C494E4541522041205349474E204136323020),
  (0x10716, 0x4C494E4541522041205349474E204136323120),
  (0x10717, 0x4C494E4541522041205349474E204136323220),
  (0x10718, 0x4C494E4541522041205349474E204136323320),
  (0x10719, 0x4C494E4541522041205349474E204136323420),
  (0x1071A, 0x4C494E4541522041205349474E204136323620),
  (0x1071B, 0x4C494E4541522041205349474E204136323720),
  (0x1071C, 0x4C494E4541522041205349474E204136323820),
  (0x1071D, 0x4C494E4541522041205349474E204136323920),
  (0x1071E, 0x4C494E4541522041205349474E204136333420),
  (0x1071F, 0x4C494E4541522041205349474E204136333720),
  (0x10720, 0x4C494E4541522041205349474E204136333820),
  (0x10721, 0x4C494E4541522041205349474E204136343020),
  (0x10722, 0x4C494E4541522041205349474E204136343220),
  (0x10723, 0x4C494E4541522041205349474E204136343320),
  (0x10724, 0x4C494E4541522041205349474E204136343420),
  (0x10725, 0x4C494E4541522041205349474E204136343520),
  (0x10726, 0x4C494E4541522041205349474E204136343620),
  (0x10727, 0x4C494E4541522041205349474E204136343820),
  (0x10728, 0x4C494E4541522041205349474E204136343920),
  (0x10729, 0x4C494E4541522041205349474E204136353120),
  (0x1072A, 0x4C494E4541522041205349474E204136353220),
  (0x1072B, 0x4C494E4541522041205349474E204136353320),
  (0x1072C, 0x4C494E4541522041205349474E204136353420),
  (0x1072D, 0x4C494E4541522041205349474E204136353520),
  (0x1072E, 0x4C494E4541522041205349474E204136353620),
  (0x1072F, 0x4C494E4541522041205349474E204136353720),
  (0x10730, 0x4C494E4541522041205349474E204136353820),
  (0x10731, 0x4C494E4541522041205349474E204136353920),
  (0x10732, 0x4C494E4541522041205349474E204136363020),
  (0x10733, 0x4C494E4541522041205349474E204136363120),
  (0x10734, 0x4C494E4541522041205349474E204136363220),
  (0x10735, 0x4C494E4541522041205349474E204136363320),
  (0x10736, 0x4C494E4541522041205349474E204136363420),
  (0x10740, 0x4C494E4541522041205349474E2041373031204120),
  (0x10741, 0x4C494E4541522041205349474E2041373032204220),
  (0x10742, 0x4C494E4541522041205349474E2041373033204420),
  (0x10743, 0x4C494E4541522041205349474E2041373034204520),
  (0x10744, 0x4C494E4541522041205349474E2041373035204620),
  (0x10745, 0x4C494E4541522041205349474E2041373036204820)]
def names_279 : List (Nat × Nat) := [
  (0x10746, 0x4C494E4541522041205349474E2041373037204A20),
  (0x10747, 0x4C494E4541522041205349474E2041373038204B20),
  (0x10748, 0x4C494E4541522041205349474E2041373039204C20),
  (0x10749, 0x4C494E4541522041205349474E20413730392D32204C3220),
  (0x1074A, 0x4C494E4541522041205349474E20413730392D33204C3320),
  (0x1074B, 0x4C494E4541522041205349474E20413730392D34204C3420),
  (0x1074C, 0x4C494E4541522041205349474E20413730392D36204C3620),
  (0x1074D, 0x4C494E4541522041205349474E2041373130205720),
  (0x1074E, 0x4C494E4541522041205349474E2041373131205820),
  (0x1074F, 0x4C494E4541522041205349474E2041373132205920),
  (0x10750, 0x4C494E4541522041205349474E2041373133204F4D45474120),
  (0x10751, 0x4C494E4541522041205349474E20413731342041424220),
  (0x10752, 0x4C494E4541522041205349474E204137313520424220),
  (0x10753, 0x4C494E4541522041205349474E204137313720444420),
  (0x10754, 0x4C494E4541522041205349474E2041373236204559595920),
  (0x10755, 0x4C494E4541522041205349474E2041373332204A4520),
  (0x10760, 0x4C494E4541522041205349474E204138303020),
  (0x10761, 0x4C494E4541522041205349474E204138303120),
  (0x10762, 0x4C494E4541522041205349474E204138303220),
  (0x10763, 0x4C494E4541522041205349474E204138303320),
  (0x10764, 0x4C494E4541522041205349474E204138303420),
  (0x10765, 0x4C494E4541522041205349474E204138303520),
  (0x10766, 0x4C494E4541522041205349474E204138303620),
  (0x10767, 0x4C494E4541522041205349474E204138303720),
  (0x10800, 0x43595052494F542053594C4C41424C45204120),
  (0x10801, 0x43595052494F542053594C4C41424C45204520),
  (0x10802, 0x43595052494F542053594C4C41424C45204920),
  (0x10803, 0x43595052494F542053594C4C41424C45204F20),
  (0x10804, 0x43595052494F542053594C4C41424C45205520),
  (0x10805, 0x43595052494F542053594C4C41424C45204A4120),
  (0x10808, 0x43595052494F542053594C4C41424C45204A4F20),
  (0x1080A, 0x43595052494F542053594C4C41424C45204B4120),
  (0x1080B, 0x43595052494F542053594C4C41424C45204B4520),
  (0x1080C, 0x43595052494F542053594C4C41424C45204B4920),
  (0x1080D, 0x43595052494F542053594C4C41424C45204B4F20),
  (0x1080E, 0x43595052494F542053594C4C41424C45204B5520),
  (0x1080F, 0x43595052494F542053594C4C41424C45204C4120),
  (0x10810, 0x43595052494F542053594C4C41424C45204C4520),
  (0x10811, 0x43595052494F542053594C4C41424C45204C4920),
  (0x10812, 0x43595052494F542053594C4C41424C45204C4F20),
  (0x10813, 0x43595052494F542053594C4C41424C45204C5520),
  (0x10814, 0x43595052494F542053594C4C41424C45204D4120),
  (0x10815, 0x43595052494F542053594C4C41424C45204D4520),
  (0x10816, 0x43595052494F542053594C4C41424C45204D4920),
  (0x10817, 0x43595052494F542053594C4C41424C45204D4F20),
  (0x10818, 0x43595052494F542053594C4C41424C45204D5520),
  (0x10819, 0x43595052494F542053594C4C41424C45204E4120),
  (0x1081A, 0x43595052494F542053594C4C41424C45204E4520),
  (0x1081B, 0x43595052494F542053594C4C41424C45204E4920),
  (0x1081C, 0x43595052494F542053594C4C41424C45204E4F20),
  (0x1081D, 0x43595052494F542053594C4C41424C45204E5520),
  (0x1081E, 0x43595052494F542053594C4C41424C4520504120),
  (0x1081F, 0x43595052494F542053594C4C41424C4520504520),
  (0x10820, 0x43595052494F542053594C4C41424C4520504920),
  (0x10821, 0x43595052494F542053594C4C41424C4520504F20),
  (0x10822, 0x43595052494F542053594C4C41424C4520505520),
  (0x10823, 0x43595052494F542053594C4C41424C4520524120),
  (0x10824, 0x43595052494F542053594C4C41424C4520524520),
  (0x10825, 0x43595052494F542053594C4C41424C4520524920),
  (0x10826, 0x43595052494F542053594C4C41424C4520524F20),
  (0x10827, 0x43595052494F542053594C4C41424C4520525520),
  (0x10828, 0x43595052494F542053594C4C41424C4520534120),
  (0x10829, 0x43595052494F542053594C4C41424C4520534520),
  (0x1082A, 0x43595052494F542053594C4C41424C4520534920)]
def names_280 : List (Nat × Nat) := [
  (0x1082B, 0x43595052494F542053594C4C41424C4520534F20),
  (0x1082C, 0x43595052494F542053594C4C41424C4520535520),
  (0x1082D, 0x43595052494F542053594C4C41424C4520544120),
  (0x1082E, 0x43595052494F542053594C4C41424C4520544520),
  (0x1082F, 0x43595052494F542053594C4C41424C4520544920),
  (0x10830, 0x43595052494F542053594C4C41424C4520544F20),
  (0x10831, 0x43595052494F542053594C4C41424C4520545520),
  (0x10832, 0x43595052494F542053594C4C41424C4520574120),
  (0x10833, 0x43595052494F542053594C4C41424C4520574520),
  (0x10834, 0x43595052494F542053594C4C41424C4520574920),
  (0x10835, 0x43595052494F542053594C4C41424C4520574F20),
  (0x10837, 0x43595052494F542053594C4C41424C4520584120),
  (0x10838, 0x43595052494F542053594C4C41424C4520584520),
  (0x1083C, 0x43595052494F542053594C4C41424C45205A4120),
  (0x1083F, 0x43595052494F542053594C4C41424C45205A4F20),
  (0x10840, 0x494D50455249414C204152414D414943204C455454455220414C45504820),
  (0x10841, 0x494D50455249414C204152414D414943204C4554544552204245544820),
  (0x10842, 0x494D50455249414C204152414D414943204C45545445522047494D454C20),
  (0x10843, 0x494D50455249414C204152414D414943204C45545445522044414C45544820),
  (0x10844, 0x494D50455249414C204152414D414943204C455454455220484520),
  (0x10845, 0x494D50455249414C204152414D414943204C45545445522057415720),
  (0x10846, 0x494D50455249414C204152414D414943204C4554544552205A4159494E20),
  (0x10847, 0x494D50455249414C204152414D414943204C4554544552204845544820),
  (0x10848, 0x494D50455249414C204152414D414943204C4554544552205445544820),
  (0x10849, 0x494D50455249414C204152414D414943204C455454455220594F444820),
  (0x1084A, 0x494D50455249414C204152414D414943204C4554544552204B41504820),
  (0x1084B, 0x494D50455249414C204152414D414943204C4554544552204C414D45444820),
  (0x1084C, 0x494D50455249414C204152414D414943204C4554544552204D454D20),
  (0x1084D, 0x494D50455249414C204152414D414943204C4554544552204E554E20),
  (0x1084E, 0x494D50455249414C204152414D414943204C45545445522053414D454B4820),
  (0x1084F, 0x494D50455249414C204152414D414943204C4554544552204159494E20),
  (0x10850, 0x494D50455249414C204152414D414943204C455454455220504520),
  (0x10851, 0x494D50455249414C204152414D414943204C455454455220534144484520),
  (0x10852, 0x494D50455249414C204152414D414943204C455454455220514F504820),
  (0x10853, 0x494D50455249414C204152414D414943204C4554544552205245534820),
  (0x10854, 0x494D50455249414C204152414D414943204C4554544552205348494E20),
  (0x10855, 0x494D50455249414C204152414D414943204C45545445522054415720),
  (0x10857, 0x494D50455249414C204152414D4149432053454354494F4E205349474E20),
  (0x10858, 0x494D50455249414C204152414D414943204E554D424552204F4E4520),
  (0x10859, 0x494D50455249414C204152414D414943204E554D4245522054574F20),
  (0x1085A, 0x494D50455249414C204152414D414943204E554D42455220544852454520),
  (0x1085B, 0x494D50455249414C204152414D414943204E554D4245522054454E20),
  (0x1085C, 0x494D50455249414C204152414D414943204E554D424552205457454E545920),
  (0x1085D, 0x494D50455249414C204152414D414943204E554D424552204F4E452048554E4452454420),
  (0x1085E, 0x494D50455249414C204152414D414943204E554D424552204F4E452054484F5553414E4420),
  (0x1085F, 0x494D50455249414C204152414D414943204E554D4245522054454E2054484F5553414E4420),
  (0x10860, 0x50414C4D5952454E45204C455454455220414C45504820),
  (0x10861, 0x50414C4D5952454E45204C4554544552204245544820),
  (0x10862, 0x50414C4D5952454E45204C45545445522047494D454C20),
  (0x10863, 0x50414C4D5952454E45204C45545445522044414C45544820),
  (0x10864, 0x50414C4D5952454E45204C455454455220484520),
  (0x10865, 0x50414C4D5952454E45204C45545445522057415720),
  (0x10866, 0x50414C4D5952454E45204C4554544552205A4159494E20),
  (0x10867, 0x50414C4D5952454E45204C4554544552204845544820),
  (0x10868, 0x50414C4D5952454E45204C4554544552205445544820),
  (0x10869, 0x50414C4D5952454E45204C455454455220594F444820),
  (0x1086A, 0x50414C4D5952454E45204C4554544552204B41504820),
  (0x1086B, 0x50414C4D5952454E45204C4554544552204C414D45444820),
  (0x1086C, 0x50414C4D5952454E45204C4554544552204D454D20),
  (0x1086D, 0x50414C4D5952454E45204C45545445522046494E414C204E554E20),
  (0x1086E, 0x50414C4D5952454E45204C4554544552204E554E20),
  (0x1086F, 0x50414C4D5952454E45204C45545445522053414D454B4820),
  (0x10870, 0x50414C4D5952454E45204C4554544552204159494E20),
  (0x10871, 0x50414C4D5952454E45204C455454455220504520)]
def names_281 : List (Nat × Nat) := [
  (0x10872, 0x50414C4D5952454E45204C455454455220534144484520),
  (0x10873, 0x50414C4D5952454E45204C455454455220514F504820),
  (0x10874, 0x50414C4D5952454E45204C4554544552205245534820),
  (0x10875, 0x50414C4D5952454E45204C4554544552205348494E20),
  (0x10876, 0x50414C4D5952454E45204C45545445522054415720),
  (0x10877, 0x50414C4D5952454E45204C4546542D504F494E54494E4720464C4555524F4E20),
  (0x10878, 0x50414C4D5952454E452052494748542D504F494E54494E4720464C4555524F4E20),
  (0x10879, 0x50414C4D5952454E45204E554D424552204F4E4520),
  (0x1087A, 0x50414C4D5952454E45204E554D4245522054574F20),
  (0x1087B, 0x50414C4D5952454E45204E554D42455220544852454520),
  (0x1087C, 0x50414C4D5952454E45204E554D42455220464F555220),
  (0x1087D, 0x50414C4D5952454E45204E554D424552204649564520),
  (0x1087E, 0x50414C4D5952454E45204E554D4245522054454E20),
  (0x1087F, 0x50414C4D5952454E45204E554D424552205457454E545920),
  (0x10880, 0x4E414241544145414E204C45545445522046494E414C20414C45504820),
  (0x10881, 0x4E414241544145414E204C455454455220414C45504820),
  (0x10882, 0x4E414241544145414E204C45545445522046494E414C204245544820),
  (0x10883, 0x4E414241544145414E204C4554544552204245544820),
  (0x10884, 0x4E414241544145414E204C45545445522047494D454C20),
  (0x10885, 0x4E414241544145414E204C45545445522044414C45544820),
  (0x10886, 0x4E414241544145414E204C45545445522046494E414C20484520),
  (0x10887, 0x4E414241544145414E204C455454455220484520),
  (0x10888, 0x4E414241544145414E204C45545445522057415720),
  (0x10889, 0x4E414241544145414E204C4554544552205A4159494E20),
  (0x1088A, 0x4E414241544145414E204C4554544552204845544820),
  (0x1088B, 0x4E414241544145414E204C4554544552205445544820),
  (0x1088C, 0x4E414241544145414E204C45545445522046494E414C20594F444820),
  (0x1088D, 0x4E414241544145414E204C455454455220594F444820),
  (0x1088E, 0x4E414241544145414E204C45545445522046494E414C204B41504820),
  (0x1088F, 0x4E414241544145414E204C4554544552204B41504820),
  (0x10890, 0x4E414241544145414E204C45545445522046494E414C204C414D45444820),
  (0x10891, 0x4E414241544145414E204C4554544552204C414D45444820),
  (0x10892, 0x4E414241544145414E204C45545445522046494E414C204D454D20),
  (0x10893, 0x4E414241544145414E204C4554544552204D454D20),
  (0x10894, 0x4E414241544145414E204C45545445522046494E414C204E554E20),
  (0x10895, 0x4E414241544145414E204C4554544552204E554E20),
  (0x10896, 0x4E414241544145414E204C45545445522053414D454B4820),
  (0x10897, 0x4E414241544145414E204C4554544552204159494E20),
  (0x10898, 0x4E414241544145414E204C455454455220504520),
  (0x10899, 0x4E414241544145414E204C455454455220534144484520),
  (0x1089A, 0x4E414241544145414E204C455454455220514F504820),
  (0x1089B, 0x4E414241544145414E204C4554544552205245534820),
  (0x1089C, 0x4E414241544145414E204C45545445522046494E414C205348494E20),
  (0x1089D, 0x4E414241544145414E204C4554544552205348494E20),
  (0x1089E, 0x4E414241544145414E204C45545445522054415720),
  (0x108A7, 0x4E414241544145414E204E554D424552204F4E4520),
  (0x108A8, 0x4E414241544145414E204E554D4245522054574F20),
  (0x108A9, 0x4E414241544145414E204E554D42455220544852454520),
  (0x108AA, 0x4E414241544145414E204E554D42455220464F555220),
  (0x108AB, 0x4E414241544145414E204352554349464F524D204E554D42455220464F555220),
  (0x108AC, 0x4E414241544145414E204E554D424552204649564520),
  (0x108AD, 0x4E414241544145414E204E554D4245522054454E20),
  (0x108AE, 0x4E414241544145414E204E554D424552205457454E545920),
  (0x108AF, 0x4E414241544145414E204E554D424552204F4E452048554E4452454420),
  (0x108E0, 0x48415452414E204C455454455220414C45504820),
  (0x108E1, 0x48415452414E204C4554544552204245544820),
  (0x108E2, 0x48415452414E204C45545445522047494D454C20),
  (0x108E3, 0x48415452414E204C45545445522044414C4554482D5245534820),
  (0x108E4, 0x48415452414E204C455454455220484520),
  (0x108E5, 0x48415452414E204C45545445522057415720),
  (0x108E6, 0x48415452414E204C4554544552205A41594E20),
  (0x108E7, 0x48415452414E204C4554544552204845544820),
  (0x108E8, 0x48415452414E204C4554544552205445544820),
  (0x108E9, 0x48415452414E204C455454455220594F444820)]
def names_282 : List (Nat × Nat) := [
  (0x108EA, 0x48415452414E204C4554544552204B41504820),
  (0x108EB, 0x48415452414E204C4554544552204C414D45444820),
  (0x108EC, 0x48415452414E204C4554544552204D454D20),
  (0x108ED, 0x48415452414E204C4554544552204E554E20),
  (0x108EE, 0x48415452414E204C45545445522053414D454B4820),
  (0x108EF, 0x48415452414E204C45545445522041594E20),
  (0x108F0, 0x48415452414E204C455454455220504520),
  (0x108F1, 0x48415452414E204C455454455220534144484520),
  (0x108F2, 0x48415452414E204C455454455220514F504820),
  (0x108F4, 0x48415452414E204C4554544552205348494E20),
  (0x108F5, 0x48415452414E204C45545445522054415720),
  (0x108FB, 0x48415452414E204E554D424552204F4E4520),
  (0x108FC, 0x48415452414E204E554D424552204649564520),
  (0x108FD, 0x48415452414E204E554D4245522054454E20),
  (0x108FE, 0x48415452414E204E554D424552205457454E545920),
  (0x108FF, 0x48415452414E204E554D424552204F4E452048554E4452454420),
  (0x10900, 0x50484F454E494349414E204C455454455220414C4620),
  (0x10901, 0x50484F454E494349414E204C45545445522042455420),
  (0x10902, 0x50484F454E494349414E204C45545445522047414D4C20),
  (0x10903, 0x50484F454E494349414E204C45545445522044454C5420),
  (0x10904, 0x50484F454E494349414E204C455454455220484520),
  (0x10905, 0x50484F454E494349414E204C45545445522057415520),
  (0x10906, 0x50484F454E494349414E204C4554544552205A414920),
  (0x10907, 0x50484F454E494349414E204C45545445522048455420),
  (0x10908, 0x50484F454E494349414E204C45545445522054455420),
  (0x10909, 0x50484F454E494349414E204C455454455220594F4420),
  (0x1090A, 0x50484F454E494349414E204C4554544552204B414620),
  (0x1090B, 0x50484F454E494349414E204C4554544552204C414D4420),
  (0x1090C, 0x50484F454E494349414E204C4554544552204D454D20),
  (0x1090D, 0x50484F454E494349414E204C4554544552204E554E20),
  (0x1090E, 0x50484F454E494349414E204C45545445522053454D4B20),
  (0x1090F, 0x50484F454E494349414E204C45545445522041494E20),
  (0x10910, 0x50484F454E494349414E204C455454455220504520),
  (0x10911, 0x50484F454E494349414E204C4554544552205341444520),
  (0x10912, 0x50484F454E494349414E204C455454455220514F4620),
  (0x10913, 0x50484F454E494349414E204C455454455220524F534820),
  (0x10914, 0x50484F454E494349414E204C4554544552205348494E20),
  (0x10915, 0x50484F454E494349414E204C45545445522054415520),
  (0x10916, 0x50484F454E494349414E204E554D424552204F4E4520),
  (0x10917, 0x50484F454E494349414E204E554D4245522054454E20),
  (0x10918, 0x50484F454E494349414E204E554D424552205457454E545920),
  (0x10919, 0x50484F454E494349414E204E554D424552204F4E452048554E4452454420),
  (0x1091A, 0x50484F454E494349414E204E554D4245522054574F20),
  (0x1091B, 0x50484F454E494349414E204E554D42455220544852454520),
  (0x1091F, 0x50484F454E494349414E20574F524420534550415241544F5220),
  (0x10920, 0x4C594449414E204C4554544552204120),
  (0x10921, 0x4C594449414E204C4554544552204220),
  (0x10922, 0x4C594449414E204C4554544552204720),
  (0x10923, 0x4C594449414E204C4554544552204420),
  (0x10924, 0x4C594449414E204C4554544552204520),
  (0x10925, 0x4C594449414E204C4554544552205620),
  (0x10926, 0x4C594449414E204C4554544552204920),
  (0x10927, 0x4C594449414E204C4554544552205920),
  (0x10928, 0x4C594449414E204C4554544552204B20),
  (0x10929, 0x4C594449414E204C4554544552204C20),
  (0x1092A, 0x4C594449414E204C4554544552204D20),
  (0x1092B, 0x4C594449414E204C4554544552204E20),
  (0x1092C, 0x4C594449414E204C4554544552204F20),
  (0x1092D, 0x4C594449414E204C4554544552205220),
  (0x1092E, 0x4C594449414E204C455454455220535320),
  (0x1092F, 0x4C594449414E204C4554544552205420),
  (0x10930, 0x4C594449414E204C4554544552205520),
  (0x10931, 0x4C594449414E204C4554544552204620),
  (0x10932, 0x4C594449414E204C4554544552205120)]
def names_283 : List (Nat × Nat) := [
  (0x10933, 0x4C594449414E204C4554544552205320),
  (0x10934, 0x4C594449414E204C455454455220545420),
  (0x10935, 0x4C594449414E204C455454455220414E20),
  (0x10936, 0x4C594449414E204C455454455220454E20),
  (0x10937, 0x4C594449414E204C4554544552204C5920),
  (0x10938, 0x4C594449414E204C4554544552204E4E20),
  (0x10939, 0x4C594449414E204C4554544552204320),
  (0x1093F, 0x4C594449414E20545249414E47554C4152204D41524B20),
  (0x10980, 0x4D45524F4954494320484945524F474C5950484943204C4554544552204120),
  (0x10981, 0x4D45524F4954494320484945524F474C5950484943204C4554544552204520),
  (0x10982, 0x4D45524F4954494320484945524F474C5950484943204C4554544552204920),
  (0x10983, 0x4D45524F4954494320484945524F474C5950484943204C4554544552204F20),
  (0x10984, 0x4D45524F4954494320484945524F474C5950484943204C455454455220594120),
  (0x10985, 0x4D45524F4954494320484945524F474C5950484943204C455454455220574120),
  (0x10986, 0x4D45524F4954494320484945524F474C5950484943204C455454455220424120),
  (0x10987, 0x4D45524F4954494320484945524F474C5950484943204C45545445522042412D3220),
  (0x10988, 0x4D45524F4954494320484945524F474C5950484943204C455454455220504120),
  (0x10989, 0x4D45524F4954494320484945524F474C5950484943204C4554544552204D4120),
  (0x1098A, 0x4D45524F4954494320484945524F474C5950484943204C4554544552204E4120),
  (0x1098B, 0x4D45524F4954494320484945524F474C5950484943204C4554544552204E412D3220),
  (0x1098C, 0x4D45524F4954494320484945524F474C5950484943204C4554544552204E4520),
  (0x1098D, 0x4D45524F4954494320484945524F474C5950484943204C4554544552204E452D3220),
  (0x1098E, 0x4D45524F4954494320484945524F474C5950484943204C455454455220524120),
  (0x1098F, 0x4D45524F4954494320484945524F474C5950484943204C45545445522052412D3220),
  (0x10990, 0x4D45524F4954494320484945524F474C5950484943204C4554544552204C4120),
  (0x10991, 0x4D45524F4954494320484945524F474C5950484943204C4554544552204B484120),
  (0x10992, 0x4D45524F4954494320484945524F474C5950484943204C45545445522048484120),
  (0x10993, 0x4D45524F4954494320484945524F474C5950484943204C455454455220534120),
  (0x10994, 0x4D45524F4954494320484945524F474C5950484943204C45545445522053412D3220),
  (0x10995, 0x4D45524F4954494320484945524F474C5950484943204C455454455220534520),
  (0x10996, 0x4D45524F4954494320484945524F474C5950484943204C4554544552204B4120),
  (0x10997, 0x4D45524F4954494320484945524F474C5950484943204C455454455220514120),
  (0x10998, 0x4D45524F4954494320484945524F474C5950484943204C455454455220544120),
  (0x10999, 0x4D45524F4954494320484945524F474C5950484943204C45545445522054412D3220),
  (0x1099A, 0x4D45524F4954494320484945524F474C5950484943204C455454455220544520),
  (0x1099B, 0x4D45524F4954494320484945524F474C5950484943204C45545445522054452D3220),
  (0x1099C, 0x4D45524F4954494320484945524F474C5950484943204C455454455220544F20),
  (0x1099D, 0x4D45524F4954494320484945524F474C5950484943204C455454455220444120),
  (0x1099E, 0x4D45524F4954494320484945524F474C59504849432053594D424F4C205649444A20),
  (0x1099F, 0x4D45524F4954494320484945524F474C59504849432053594D424F4C205649444A2D3220),
  (0x109A0, 0x4D45524F495449432043555253495645204C4554544552204120),
  (0x109A1, 0x4D45524F495449432043555253495645204C4554544552204520),
  (0x109A2, 0x4D45524F495449432043555253495645204C4554544552204920),
  (0x109A3, 0x4D45524F495449432043555253495645204C4554544552204F20),
  (0x109A4, 0x4D45524F495449432043555253495645204C455454455220594120),
  (0x109A5, 0x4D45524F495449432043555253495645204C455454455220574120),
  (0x109A6, 0x4D45524F495449432043555253495645204C455454455220424120),
  (0x109A7, 0x4D45524F495449432043555253495645204C455454455220504120),
  (0x109A8, 0x4D45524F495449432043555253495645204C4554544552204D4120),
  (0x109A9, 0x4D45524F495449432043555253495645204C4554544552204E4120),
  (0x109AA, 0x4D45524F495449432043555253495645204C4554544552204E4520),
  (0x109AB, 0x4D45524F495449432043555253495645204C455454455220524120),
  (0x109AC, 0x4D45524F495449432043555253495645204C4554544552204C4120),
  (0x109AD, 0x4D45524F495449432043555253495645204C4554544552204B484120),
  (0x109AE, 0x4D45524F495449432043555253495645204C45545445522048484120),
  (0x109AF, 0x4D45524F495449432043555253495645204C455454455220534120),
  (0x109B0, 0x4D45524F495449432043555253495645204C4554544552204152434841494320534120),
  (0x109B1, 0x4D45524F495449432043555253495645204C455454455220534520),
  (0x109B2, 0x4D45524F495449432043555253495645204C4554544552204B4120),
  (0x109B3, 0x4D45524F495449432043555253495645204C455454455220514120),
  (0x109B4, 0x4D45524F495449432043555253495645204C455454455220544120),
  (0x109B5, 0x4D45524F495449432043555253495645204C455454455220544520),
  (0x109B6, 0x4D45524F495449432043555253495645204C455454455220544F20),
  (0x109B7, 0x4D45524F495449432043555253495645204C455454455220444120)]
def names_284 : List (Nat × Nat) := [
  (0x109BC, 0x4D45524F495449432043555253495645204652414354494F4E20454C4556454E205457454C4654485320),
  (0x109BD, 0x4D45524F495449432043555253495645204652414354494F4E204F4E452048414C4620),
  (0x109BE, 0x4D45524F495449432043555253495645204C4F474F4752414D20524D5420),
  (0x109BF, 0x4D45524F495449432043555253495645204C4F474F4752414D20494D4E20),
  (0x109C0, 0x4D45524F495449432043555253495645204E554D424552204F4E4520),
  (0x109C1, 0x4D45524F495449432043555253495645204E554D4245522054574F20),
  (0x109C2, 0x4D45524F495449432043555253495645204E554D42455220544852454520),
  (0x109C3, 0x4D45524F495449432043555253495645204E554D42455220464F555220),
  (0x109C4, 0x4D45524F495449432043555253495645204E554D424552204649564520),
  (0x109C5, 0x4D45524F495449432043555253495645204E554D4245522053495820),
  (0x109C6, 0x4D45524F495449432043555253495645204E554D42455220534556454E20),
  (0x109C7, 0x4D45524F495449432043555253495645204E554D42455220454947485420),
  (0x109C8, 0x4D45524F495449432043555253495645204E554D424552204E494E4520),
  (0x109C9, 0x4D45524F495449432043555253495645204E554D4245522054454E20),
  (0x109CA, 0x4D45524F495449432043555253495645204E554D424552205457454E545920),
  (0x109CB, 0x4D45524F495449432043555253495645204E554D4245522054484952545920),
  (0x109CC, 0x4D45524F495449432043555253495645204E554D42455220464F52545920),
  (0x109CD, 0x4D45524F495449432043555253495645204E554D42455220464946545920),
  (0x109CE, 0x4D45524F495449432043555253495645204E554D42455220534958545920),
  (0x109CF, 0x4D45524F495449432043555253495645204E554D42455220534556454E545920),
  (0x109D2, 0x4D45524F495449432043555253495645204E554D424552204F4E452048554E4452454420),
  (0x109D3, 0x4D45524F495449432043555253495645204E554D4245522054574F2048554E4452454420),
  (0x109D4, 0x4D45524F495449432043555253495645204E554D4245522054485245452048554E4452454420),
  (0x109D5, 0x4D45524F495449432043555253495645204E554D42455220464F55522048554E4452454420),
  (0x109D6, 0x4D45524F495449432043555253495645204E554D42455220464956452048554E4452454420),
  (0x109D7, 0x4D45524F495449432043555253495645204E554D424552205349582048554E4452454420),
  (0x109D8, 0x4D45524F495449432043555253495645204E554D42455220534556454E2048554E4452454420),
  (0x109D9, 0x4D45524F495449432043555253495645204E554D4245522045494748542048554E4452454420),
  (0x109DA, 0x4D45524F495449432043555253495645204E554D424552204E494E452048554E4452454420),
  (0x109DB, 0x4D45524F495449432043555253495645204E554D424552204F4E452054484F5553414E4420),
  (0x109DC, 0x4D45524F495449432043555253495645204E554D4245522054574F2054484F5553414E4420),
  (0x109DD, 0x4D45524F495449432043555253495645204E554D4245522054485245452054484F5553414E4420),
  (0x109DE, 0x4D45524F495449432043555253495645204E554D42455220464F55522054484F5553414E4420),
  (0x109DF, 0x4D45524F495449432043555253495645204E554D42455220464956452054484F5553414E4420),
  (0x109E0, 0x4D45524F495449432043555253495645204E554D424552205349582054484F5553414E4420),
  (0x109E1, 0x4D45524F495449432043555253495645204E554D42455220534556454E2054484F5553414E4420),
  (0x109E2, 0x4D45524F495449432043555253495645204E554D4245522045494748542054484F5553414E4420),
  (0x109E3, 0x4D45524F495449432043555253495645204E554D424552204E494E452054484F5553414E4420),
  (0x109E4, 0x4D45524F495449432043555253495645204E554D4245522054454E2054484F5553414E4420),
  (0x109E5, 0x4D45524F495449432043555253495645204E554D424552205457454E54592054484F5553414E4420),
  (0x109E6, 0x4D45524F495449432043555253495645204E554D424552205448495254592054484F5553414E4420),
  (0x109E7, 0x4D45524F495449432043555253495645204E554D42455220464F5254592054484F5553414E4420),
  (0x109E8, 0x4D45524F495449432043555253495645204E554D4245522046494654592054484F5553414E4420),
  (0x109E9, 0x4D45524F495449432043555253495645204E554D4245522053495854592054484F5553414E4420),
  (0x109EA, 0x4D45524F495449432043555253495645204E554D42455220534556454E54592054484F5553414E4420),
  (0x109EB, 0x4D45524F495449432043555253495645204E554D424552204549474854592054484F5553414E4420),
  (0x109EC, 0x4D45524F495449432043555253495645204E554D424552204E494E4554592054484F5553414E4420),
  (0x109ED, 0x4D45524F495449432043555253495645204E554D424552204F4E452048554E445245442054484F5553414E4420),
  (0x109EE, 0x4D45524F495449432043555253495645204E554D4245522054574F2048554E445245442054484F5553414E4420),
  (0x109EF, 0x4D45524F495449432043555253495645204E554D4245522054485245452048554E445245442054484F5553414E4420),
  (0x109F0, 0x4D45524F495449432043555253495645204E554D42455220464F55522048554E445245442054484F5553414E4420),
  (0x109F1, 0x4D45524F495449432043555253495645204E554D42455220464956452048554E445245442054484F5553414E4420),
  (0x109F2, 0x4D45524F495449432043555253495645204E554D424552205349582048554E445245442054484F5553414E4420),
  (0x109F3, 0x4D45524F495449432043555253495645204E554D42455220534556454E2048554E445245442054484F5553414E4420),
  (0x109F4, 0x4D45524F495449432043555253495645204E554D4245522045494748542048554E445245442054484F5553414E4420),
  (0x109F5, 0x4D45524F495449432043555253495645204E554D424552204E494E452048554E445245442054484F5553414E4420),
  (0x109F6, 0x4D45524F495449432043555253495645204652414354494F4E204F4E45205457454C46544820),
  (0x109F7, 0x4D45524F495449432043555253495645204652414354494F4E2054574F205457454C4654485320),
  (0x109F8, 0x4D45524F495449432043555253495645204652414354494F4E205448524545205457454C4654485320),
  (0x109F9, 0x4D45524F495449432043555253495645204652414354494F4E20464F5552205457454C4654485320),
  (0x109FA, 0x4D45524F495449432043555253495645204652414354494F4E2046495645205457454C4654485320),
  (0x109FB, 0x4D45524F495449432043555253495645204652414354494F4E20534958205457454C4654485320),
  (0x109FC, 0x4D45524F495449432043555253495645204652414354494F4E20534556454E205457454C4654485320),
  (0x109FD, 0x4D45524F495449432043555253495645204652414354494F4E204549474854205457454C4654485320)]
def names_285 : List (Nat × Nat) := [
  (0x109FE, 0x4D45524F495449432043555253495645204652414354494F4E204E494E45205457454C4654485320),
  (0x109FF, 0x4D45524F495449432043555253495645204652414354494F4E2054454E205457454C4654485320),
  (0x10A00, 0x4B4841524F5348544849204C4554544552204120),
  (0x10A01, 0x4B4841524F534854484920564F57454C205349474E204920),
  (0x10A02, 0x4B4841524F534854484920564F57454C205349474E205520),
  (0x10A03, 0x4B4841524F534854484920564F57454C205349474E20564F43414C4943205220),
  (0x10A05, 0x4B4841524F534854484920564F57454C205349474E204520),
  (0x10A06, 0x4B4841524F534854484920564F57454C205349474E204F20),
  (0x10A0C, 0x4B4841524F534854484920564F57454C204C454E475448204D41524B20),
  (0x10A0D, 0x4B4841524F5348544849205349474E20444F55424C452052494E472042454C4F5720),
  (0x10A0E, 0x4B4841524F5348544849205349474E20414E55535641524120),
  (0x10A0F, 0x4B4841524F5348544849205349474E205649534152474120),
  (0x10A10, 0x4B4841524F5348544849204C4554544552204B4120),
  (0x10A11, 0x4B4841524F5348544849204C4554544552204B484120),
  (0x10A12, 0x4B4841524F5348544849204C455454455220474120),
  (0x10A13, 0x4B4841524F5348544849204C45545445522047484120),
  (0x10A15, 0x4B4841524F5348544849204C455454455220434120),
  (0x10A16, 0x4B4841524F5348544849204C45545445522043484120),
  (0x10A17, 0x4B4841524F5348544849204C4554544552204A4120),
  (0x10A19, 0x4B4841524F5348544849204C4554544552204E594120),
  (0x10A1A, 0x4B4841524F5348544849204C45545445522054544120),
  (0x10A1B, 0x4B4841524F5348544849204C4554544552205454484120),
  (0x10A1C, 0x4B4841524F5348544849204C45545445522044444120),
  (0x10A1D, 0x4B4841524F5348544849204C4554544552204444484120),
  (0x10A1E, 0x4B4841524F5348544849204C4554544552204E4E4120),
  (0x10A1F, 0x4B4841524F5348544849204C455454455220544120),
  (0x10A20, 0x4B4841524F5348544849204C45545445522054484120),
  (0x10A21, 0x4B4841524F5348544849204C455454455220444120),
  (0x10A22, 0x4B4841524F5348544849204C45545445522044484120),
  (0x10A23, 0x4B4841524F5348544849204C4554544552204E4120),
  (0x10A24, 0x4B4841524F5348544849204C455454455220504120),
  (0x10A25, 0x4B4841524F5348544849204C45545445522050484120),
  (0x10A26, 0x4B4841524F5348544849204C455454455220424120),
  (0x10A27, 0x4B4841524F5348544849204C45545445522042484120),
  (0x10A28, 0x4B4841524F5348544849204C4554544552204D4120),
  (0x10A29, 0x4B4841524F5348544849204C455454455220594120),
  (0x10A2A, 0x4B4841524F5348544849204C455454455220524120),
  (0x10A2B, 0x4B4841524F5348544849204C4554544552204C4120),
  (0x10A2C, 0x4B4841524F5348544849204C455454455220564120),
  (0x10A2D, 0x4B4841524F5348544849204C45545445522053484120),
  (0x10A2E, 0x4B4841524F5348544849204C45545445522053534120),
  (0x10A2F, 0x4B4841524F5348544849204C455454455220534120),
  (0x10A30, 0x4B4841524F5348544849204C4554544552205A4120),
  (0x10A31, 0x4B4841524F5348544849204C455454455220484120),
  (0x10A32, 0x4B4841524F5348544849204C4554544552204B4B4120),
  (0x10A33, 0x4B4841524F5348544849204C455454455220545454484120),
  (0x10A38, 0x4B4841524F5348544849205349474E204241522041424F564520),
  (0x10A39, 0x4B4841524F5348544849205349474E20434155444120),
  (0x10A3A, 0x4B4841524F5348544849205349474E20444F542042454C4F5720),
  (0x10A3F, 0x4B4841524F534854484920564952414D4120),
  (0x10A40, 0x4B4841524F5348544849204449474954204F4E4520),
  (0x10A41, 0x4B4841524F53485448492044494749542054574F20),
  (0x10A42, 0x4B4841524F534854484920444947495420544852454520),
  (0x10A43, 0x4B4841524F534854484920444947495420464F555220),
  (0x10A44, 0x4B4841524F5348544849204E554D4245522054454E20),
  (0x10A45, 0x4B4841524F5348544849204E554D424552205457454E545920),
  (0x10A46, 0x4B4841524F5348544849204E554D424552204F4E452048554E4452454420),
  (0x10A47, 0x4B4841524F5348544849204E554D424552204F4E452054484F5553414E4420),
  (0x10A50, 0x4B4841524F53485448492050554E4354554154494F4E20444F5420),
  (0x10A51, 0x4B4841524F53485448492050554E4354554154494F4E20534D414C4C20434952434C4520),
  (0x10A52, 0x4B4841524F53485448492050554E4354554154494F4E20434952434C4520),
  (0x10A53, 0x4B4841524F53485448492050554E4354554154494F4E204352455343454E542042415220),
  (0x10A54, 0x4B4841524F53485448492050554E4354554154494F4E204D414E47414C414D20),
  (0x10A55, 0x4B4841524F53485448492050554E4354554154494F4E204C4F54555320)]
def names_286 : List (Nat × Nat) := [
  (0x10A56, 0x4B4841524F53485448492050554E4354554154494F4E2044414E444120),
  (0x10A57, 0x4B4841524F53485448492050554E4354554154494F4E20444F55424C452044414E444120),
  (0x10A58, 0x4B4841524F53485448492050554E4354554154494F4E204C494E455320),
  (0x10A60, 0x4F4C4420534F555448204152414249414E204C455454455220484520),
  (0x10A61, 0x4F4C4420534F555448204152414249414E204C4554544552204C414D45444820),
  (0x10A62, 0x4F4C4420534F555448204152414249414E204C4554544552204845544820),
  (0x10A63, 0x4F4C4420534F555448204152414249414E204C4554544552204D454D20),
  (0x10A64, 0x4F4C4420534F555448204152414249414E204C455454455220514F504820),
  (0x10A65, 0x4F4C4420534F555448204152414249414E204C45545445522057415720),
  (0x10A66, 0x4F4C4420534F555448204152414249414E204C4554544552205348494E20),
  (0x10A67, 0x4F4C4420534F555448204152414249414E204C4554544552205245534820),
  (0x10A68, 0x4F4C4420534F555448204152414249414E204C4554544552204245544820),
  (0x10A69, 0x4F4C4420534F555448204152414249414E204C45545445522054415720),
  (0x10A6A, 0x4F4C4420534F555448204152414249414E204C45545445522053415420),
  (0x10A6B, 0x4F4C4420534F555448204152414249414E204C4554544552204B41504820),
  (0x10A6C, 0x4F4C4420534F555448204152414249414E204C4554544552204E554E20),
  (0x10A6D, 0x4F4C4420534F555448204152414249414E204C4554544552204B4845544820),
  (0x10A6E, 0x4F4C4420534F555448204152414249414E204C455454455220534144484520),
  (0x10A6F, 0x4F4C4420534F555448204152414249414E204C45545445522053414D454B4820),
  (0x10A70, 0x4F4C4420534F555448204152414249414E204C455454455220464520),
  (0x10A71, 0x4F4C4420534F555448204152414249414E204C455454455220414C454620),
  (0x10A72, 0x4F4C4420534F555448204152414249414E204C45545445522041594E20),
  (0x10A73, 0x4F4C4420534F555448204152414249414E204C45545445522044484144484520),
  (0x10A74, 0x4F4C4420534F555448204152414249414E204C45545445522047494D454C20),
  (0x10A75, 0x4F4C4420534F555448204152414249414E204C45545445522044414C45544820),
  (0x10A76, 0x4F4C4420534F555448204152414249414E204C455454455220474841594E20),
  (0x10A77, 0x4F4C4420534F555448204152414249414E204C4554544552205445544820),
  (0x10A78, 0x4F4C4420534F555448204152414249414E204C4554544552205A41594E20),
  (0x10A79, 0x4F4C4420534F555448204152414249414E204C4554544552204448414C45544820),
  (0x10A7A, 0x4F4C4420534F555448204152414249414E204C455454455220594F444820),
  (0x10A7B, 0x4F4C4420534F555448204152414249414E204C4554544552205448415720),
  (0x10A7C, 0x4F4C4420534F555448204152414249414E204C455454455220544845544820),
  (0x10A7D, 0x4F4C4420534F555448204152414249414E204E554D424552204F4E4520),
  (0x10A7E, 0x4F4C4420534F555448204152414249414E204E554D42455220464946545920),
  (0x10A7F, 0x4F4C4420534F555448204152414249414E204E554D4552494320494E44494341544F5220),
  (0x10A80, 0x4F4C44204E4F525448204152414249414E204C45545445522048454820),
  (0x10A81, 0x4F4C44204E4F525448204152414249414E204C4554544552204C414D20),
  (0x10A82, 0x4F4C44204E4F525448204152414249414E204C45545445522048414820),
  (0x10A83, 0x4F4C44204E4F525448204152414249414E204C4554544552204D45454D20),
  (0x10A84, 0x4F4C44204E4F525448204152414249414E204C45545445522051414620),
  (0x10A85, 0x4F4C44204E4F525448204152414249414E204C45545445522057415720),
  (0x10A86, 0x4F4C44204E4F525448204152414249414E204C45545445522045532D3220),
  (0x10A87, 0x4F4C44204E4F525448204152414249414E204C45545445522052454820),
  (0x10A88, 0x4F4C44204E4F525448204152414249414E204C45545445522042454820),
  (0x10A89, 0x4F4C44204E4F525448204152414249414E204C45545445522054454820),
  (0x10A8A, 0x4F4C44204E4F525448204152414249414E204C45545445522045532D3120),
  (0x10A8B, 0x4F4C44204E4F525448204152414249414E204C4554544552204B414620),
  (0x10A8C, 0x4F4C44204E4F525448204152414249414E204C4554544552204E4F4F4E20),
  (0x10A8D, 0x4F4C44204E4F525448204152414249414E204C4554544552204B48414820),
  (0x10A8E, 0x4F4C44204E4F525448204152414249414E204C45545445522053414420),
  (0x10A8F, 0x4F4C44204E4F525448204152414249414E204C45545445522045532D3320),
  (0x10A90, 0x4F4C44204E4F525448204152414249414E204C45545445522046454820),
  (0x10A91, 0x4F4C44204E4F525448204152414249414E204C455454455220414C454620),
  (0x10A92, 0x4F4C44204E4F525448204152414249414E204C45545445522041494E20),
  (0x10A93, 0x4F4C44204E4F525448204152414249414E204C45545445522044414420),
  (0x10A94, 0x4F4C44204E4F525448204152414249414E204C4554544552204745454D20),
  (0x10A95, 0x4F4C44204E4F525448204152414249414E204C45545445522044414C20),
  (0x10A96, 0x4F4C44204E4F525448204152414249414E204C455454455220474841494E20),
  (0x10A97, 0x4F4C44204E4F525448204152414249414E204C45545445522054414820),
  (0x10A98, 0x4F4C44204E4F525448204152414249414E204C4554544552205A41494E20),
  (0x10A99, 0x4F4C44204E4F525448204152414249414E204C4554544552205448414C20),
  (0x10A9A, 0x4F4C44204E4F525448204152414249414E204C45545445522059454820),
  (0x10A9B, 0x4F4C44204E4F525448204152414249414E204C4554544552205448454820),
  (0x10A9C, 0x4F4C44204E4F525448204152414249414E204C4554544552205A414820)]
def names_287 : List (Nat × Nat) := [
  (0x10A9D, 0x4F4C44204E4F525448204152414249414E204E554D424552204F4E4520),
  (0x10A9E, 0x4F4C44204E4F525448204152414249414E204E554D4245522054454E20),
  (0x10A9F, 0x4F4C44204E4F525448204152414249414E204E554D424552205457454E545920),
  (0x10AC0, 0x4D414E4943484145414E204C455454455220414C45504820),
  (0x10AC1, 0x4D414E4943484145414E204C4554544552204245544820),
  (0x10AC2, 0x4D414E4943484145414E204C455454455220424845544820),
  (0x10AC3, 0x4D414E4943484145414E204C45545445522047494D454C20),
  (0x10AC4, 0x4D414E4943484145414E204C4554544552204748494D454C20),
  (0x10AC5, 0x4D414E4943484145414E204C45545445522044414C45544820),
  (0x10AC6, 0x4D414E4943484145414E204C455454455220484520),
  (0x10AC7, 0x4D414E4943484145414E204C45545445522057415720),
  (0x10AC8, 0x4D414E4943484145414E205349474E20554420),
  (0x10AC9, 0x4D414E4943484145414E204C4554544552205A4159494E20),
  (0x10ACA, 0x4D414E4943484145414E204C4554544552205A484159494E20),
  (0x10ACB, 0x4D414E4943484145414E204C4554544552204A4159494E20),
  (0x10ACC, 0x4D414E4943484145414E204C4554544552204A484159494E20),
  (0x10ACD, 0x4D414E4943484145414E204C4554544552204845544820),
  (0x10ACE, 0x4D414E4943484145414E204C4554544552205445544820),
  (0x10ACF, 0x4D414E4943484145414E204C455454455220594F444820),
  (0x10AD0, 0x4D414E4943484145414E204C4554544552204B41504820),
  (0x10AD1, 0x4D414E4943484145414E204C4554544552205841504820),
  (0x10AD2, 0x4D414E4943484145414E204C4554544552204B4841504820),
  (0x10AD3, 0x4D414E4943484145414E204C4554544552204C414D45444820),
  (0x10AD4, 0x4D414E4943484145414E204C4554544552204448414D45444820),
  (0x10AD5, 0x4D414E4943484145414E204C4554544552205448414D45444820),
  (0x10AD6, 0x4D414E4943484145414E204C4554544552204D454D20),
  (0x10AD7, 0x4D414E4943484145414E204C4554544552204E554E20),
  (0x10AD8, 0x4D414E4943484145414E204C45545445522053414D454B4820),
  (0x10AD9, 0x4D414E4943484145414E204C4554544552204159494E20),
  (0x10ADA, 0x4D414E4943484145414E204C455454455220414159494E20),
  (0x10ADB, 0x4D414E4943484145414E204C455454455220504520),
  (0x10ADC, 0x4D414E4943484145414E204C455454455220464520),
  (0x10ADD, 0x4D414E4943484145414E204C455454455220534144484520),
  (0x10ADE, 0x4D414E4943484145414E204C455454455220514F504820),
  (0x10ADF, 0x4D414E4943484145414E204C455454455220584F504820),
  (0x10AE0, 0x4D414E4943484145414E204C45545445522051484F504820),
  (0x10AE1, 0x4D414E4943484145414E204C4554544552205245534820),
  (0x10AE2, 0x4D414E4943484145414E204C4554544552205348494E20),
  (0x10AE3, 0x4D414E4943484145414E204C455454455220535348494E20),
  (0x10AE4, 0x4D414E4943484145414E204C45545445522054415720),
  (0x10AE5, 0x4D414E4943484145414E20414242524556494154494F4E204D41524B2041424F564520),
  (0x10AE6, 0x4D414E4943484145414E20414242524556494154494F4E204D41524B2042454C4F5720),
  (0x10AEB, 0x4D414E4943484145414E204E554D424552204F4E4520),
  (0x10AEC, 0x4D414E4943484145414E204E554D424552204649564520),
  (0x10AED, 0x4D414E4943484145414E204E554D4245522054454E20),
  (0x10AEE, 0x4D414E4943484145414E204E554D424552205457454E545920),
  (0x10AEF, 0x4D414E4943484145414E204E554D424552204F4E452048554E4452454420),
  (0x10AF0, 0x4D414E4943484145414E2050554E4354554154494F4E205354415220),
  (0x10AF1, 0x4D414E4943484145414E2050554E4354554154494F4E20464C4555524F4E20),
  (0x10AF2, 0x4D414E4943484145414E2050554E4354554154494F4E20444F55424C4520444F542057495448494E20444F5420),
  (0x10AF3, 0x4D414E4943484145414E2050554E4354554154494F4E20444F542057495448494E20444F5420),
  (0x10AF4, 0x4D414E4943484145414E2050554E4354554154494F4E20444F5420),
  (0x10AF5, 0x4D414E4943484145414E2050554E4354554154494F4E2054574F20444F545320),
  (0x10AF6, 0x4D414E4943484145414E2050554E4354554154494F4E204C494E452046494C4C455220),
  (0x10B00, 0x4156455354414E204C4554544552204120),
  (0x10B01, 0x4156455354414E204C455454455220414120),
  (0x10B02, 0x4156455354414E204C455454455220414F20),
  (0x10B03, 0x4156455354414E204C45545445522041414F20),
  (0x10B04, 0x4156455354414E204C455454455220414E20),
  (0x10B05, 0x4156455354414E204C45545445522041414E20),
  (0x10B06, 0x4156455354414E204C455454455220414520),
  (0x10B07, 0x4156455354414E204C45545445522041454520),
  (0x10B08, 0x4156455354414E204C4554544552204520),
  (0x10B09, 0x4156455354414E204C455454455220454520)]
def names_288 : List (Nat × Nat) := [
  (0x10B0A, 0x4156455354414E204C4554544552204F20),
  (0x10B0B, 0x4156455354414E204C4554544552204F4F20),
  (0x10B0C, 0x4156455354414E204C4554544552204920),
  (0x10B0D, 0x4156455354414E204C455454455220494920),
  (0x10B0E, 0x4156455354414E204C4554544552205520),
  (0x10B0F, 0x4156455354414E204C455454455220555520),
  (0x10B10, 0x4156455354414E204C4554544552204B4520),
  (0x10B11, 0x4156455354414E204C455454455220584520),
  (0x10B12, 0x4156455354414E204C45545445522058594520),
  (0x10B13, 0x4156455354414E204C45545445522058564520),
  (0x10B14, 0x4156455354414E204C455454455220474520),
  (0x10B15, 0x4156455354414E204C45545445522047474520),
  (0x10B16, 0x4156455354414E204C45545445522047484520),
  (0x10B17, 0x4156455354414E204C455454455220434520),
  (0x10B18, 0x4156455354414E204C4554544552204A4520),
  (0x10B19, 0x4156455354414E204C455454455220544520),
  (0x10B1A, 0x4156455354414E204C45545445522054484520),
  (0x10B1B, 0x4156455354414E204C455454455220444520),
  (0x10B1C, 0x4156455354414E204C45545445522044484520),
  (0x10B1D, 0x4156455354414E204C45545445522054544520),
  (0x10B1E, 0x4156455354414E204C455454455220504520),
  (0x10B1F, 0x4156455354414E204C455454455220464520),
  (0x10B20, 0x4156455354414E204C455454455220424520),
  (0x10B21, 0x4156455354414E204C45545445522042484520),
  (0x10B22, 0x4156455354414E204C4554544552204E474520),
  (0x10B23, 0x4156455354414E204C4554544552204E47594520),
  (0x10B24, 0x4156455354414E204C4554544552204E47564520),
  (0x10B25, 0x4156455354414E204C4554544552204E4520),
  (0x10B26, 0x4156455354414E204C4554544552204E594520),
  (0x10B27, 0x4156455354414E204C4554544552204E4E4520),
  (0x10B28, 0x4156455354414E204C4554544552204D4520),
  (0x10B29, 0x4156455354414E204C455454455220484D4520),
  (0x10B2A, 0x4156455354414E204C45545445522059594520),
  (0x10B2B, 0x4156455354414E204C455454455220594520),
  (0x10B2C, 0x4156455354414E204C455454455220564520),
  (0x10B2D, 0x4156455354414E204C455454455220524520),
  (0x10B2E, 0x4156455354414E204C4554544552204C4520),
  (0x10B2F, 0x4156455354414E204C455454455220534520),
  (0x10B30, 0x4156455354414E204C4554544552205A4520),
  (0x10B31, 0x4156455354414E204C45545445522053484520),
  (0x10B32, 0x4156455354414E204C4554544552205A484520),
  (0x10B33, 0x4156455354414E204C4554544552205348594520),
  (0x10B34, 0x4156455354414E204C4554544552205353484520),
  (0x10B35, 0x4156455354414E204C455454455220484520),
  (0x10B39, 0x4156455354414E20414242524556494154494F4E204D41524B20),
  (0x10B3A, 0x54494E592054574F20444F5453204F564552204F4E4520444F542050554E4354554154494F4E20),
  (0x10B3B, 0x534D414C4C2054574F20444F5453204F564552204F4E4520444F542050554E4354554154494F4E20),
  (0x10B3C, 0x4C415247452054574F20444F5453204F564552204F4E4520444F542050554E4354554154494F4E20),
  (0x10B3D, 0x4C41524745204F4E4520444F54204F5645522054574F20444F54532050554E4354554154494F4E20),
  (0x10B3E, 0x4C415247452054574F2052494E4753204F564552204F4E452052494E472050554E4354554154494F4E20),
  (0x10B3F, 0x4C41524745204F4E452052494E47204F5645522054574F2052494E47532050554E4354554154494F4E20),
  (0x10B40, 0x494E534352495054494F4E414C20504152544849414E204C455454455220414C45504820),
  (0x10B41, 0x494E534352495054494F4E414C20504152544849414E204C4554544552204245544820),
  (0x10B42, 0x494E534352495054494F4E414C20504152544849414E204C45545445522047494D454C20),
  (0x10B43, 0x494E534352495054494F4E414C20504152544849414E204C45545445522044414C45544820),
  (0x10B44, 0x494E534352495054494F4E414C20504152544849414E204C455454455220484520),
  (0x10B45, 0x494E534352495054494F4E414C20504152544849414E204C45545445522057415720),
  (0x10B46, 0x494E534352495054494F4E414C20504152544849414E204C4554544552205A4159494E20),
  (0x10B47, 0x494E534352495054494F4E414C20504152544849414E204C4554544552204845544820),
  (0x10B48, 0x494E534352495054494F4E414C20504152544849414E204C4554544552205445544820),
  (0x10B49, 0x494E534352495054494F4E414C20504152544849414E204C455454455220594F444820),
  (0x10B4A, 0x494E534352495054494F4E414C20504152544849414E204C4554544552204B41504820),
  (0x10B4B, 0x494E534352495054494F4E414C20504152544849414E204C4554544552204C414D45444820),
  (0x10B4C, 0x494E534352495054494F4E414C20504152544849414E204C4554544552204D454D20)]
def names_289 : List (Nat × Nat) := [
  (0x10B4D, 0x494E534352495054494F4E414C20504152544849414E204C4554544552204E554E20),
  (0x10B4E, 0x494E534352495054494F4E414C20504152544849414E204C45545445522053414D454B4820),
  (0x10B4F, 0x494E534352495054494F4E414C20504152544849414E204C4554544552204159494E20),
  (0x10B50, 0x494E534352495054494F4E414C20504152544849414E204C455454455220504520),
  (0x10B51, 0x494E534352495054494F4E414C20504152544849414E204C455454455220534144484520),
  (0x10B52, 0x494E534352495054494F4E414C20504152544849414E204C455454455220514F504820),
  (0x10B53, 0x494E534352495054494F4E414C20504152544849414E204C4554544552205245534820),
  (0x10B54, 0x494E534352495054494F4E414C20504152544849414E204C4554544552205348494E20),
  (0x10B55, 0x494E534352495054494F4E414C20504152544849414E204C45545445522054415720),
  (0x10B58, 0x494E534352495054494F4E414C20504152544849414E204E554D424552204F4E4520),
  (0x10B59, 0x494E534352495054494F4E414C20504152544849414E204E554D4245522054574F20),
  (0x10B5A, 0x494E534352495054494F4E414C20504152544849414E204E554D42455220544852454520),
  (0x10B5B, 0x494E534352495054494F4E414C20504152544849414E204E554D42455220464F555220),
  (0x10B5C, 0x494E534352495054494F4E414C20504152544849414E204E554D4245522054454E20),
  (0x10B5D, 0x494E534352495054494F4E414C20504152544849414E204E554D424552205457454E545920),
  (0x10B5E, 0x494E534352495054494F4E414C20504152544849414E204E554D424552204F4E452048554E4452454420),
  (0x10B5F, 0x494E534352495054494F4E414C20504152544849414E204E554D424552204F4E452054484F5553414E4420),
  (0x10B60, 0x494E534352495054494F4E414C205041484C415649204C455454455220414C45504820),
  (0x10B61, 0x494E534352495054494F4E414C205041484C415649204C4554544552204245544820),
  (0x10B62, 0x494E534352495054494F4E414C205041484C415649204C45545445522047494D454C20),
  (0x10B63, 0x494E534352495054494F4E414C205041484C415649204C45545445522044414C45544820),
  (0x10B64, 0x494E534352495054494F4E414C205041484C415649204C455454455220484520),
  (0x10B65, 0x494E534352495054494F4E414C205041484C415649204C4554544552205741572D4159494E2D5245534820),
  (0x10B66, 0x494E534352495054494F4E414C205041484C415649204C4554544552205A4159494E20),
  (0x10B67, 0x494E534352495054494F4E414C205041484C415649204C4554544552204845544820),
  (0x10B68, 0x494E534352495054494F4E414C205041484C415649204C4554544552205445544820),
  (0x10B69, 0x494E534352495054494F4E414C205041484C415649204C455454455220594F444820),
  (0x10B6A, 0x494E534352495054494F4E414C205041484C415649204C4554544552204B41504820),
  (0x10B6B, 0x494E534352495054494F4E414C205041484C415649204C4554544552204C414D45444820),
  (0x10B6C, 0x494E534352495054494F4E414C205041484C415649204C4554544552204D454D2D514F504820),
  (0x10B6D, 0x494E534352495054494F4E414C205041484C415649204C4554544552204E554E20),
  (0x10B6E, 0x494E534352495054494F4E414C205041484C415649204C45545445522053414D454B4820),
  (0x10B6F, 0x494E534352495054494F4E414C205041484C415649204C455454455220504520),
  (0x10B70, 0x494E534352495054494F4E414C205041484C415649204C455454455220534144484520),
  (0x10B71, 0x494E534352495054494F4E414C205041484C415649204C4554544552205348494E20),
  (0x10B72, 0x494E534352495054494F4E414C205041484C415649204C45545445522054415720),
  (0x10B78, 0x494E534352495054494F4E414C205041484C415649204E554D424552204F4E4520),
  (0x10B79, 0x494E534352495054494F4E414C205041484C415649204E554D4245522054574F20),
  (0x10B7A, 0x494E534352495054494F4E414C205041484C415649204E554D42455220544852454520),
  (0x10B7B, 0x494E534352495054494F4E414C205041484C415649204E554D42455220464F555220),
  (0x10B7C, 0x494E534352495054494F4E414C205041484C415649204E554D4245522054454E20),
  (0x10B7D, 0x494E534352495054494F4E414C205041484C415649204E554D424552205457454E545920),
  (0x10B7E, 0x494E534352495054494F4E414C205041484C415649204E554D424552204F4E452048554E4452454420),
  (0x10B7F, 0x494E534352495054494F4E414C205041484C415649204E554D424552204F4E452054484F5553414E4420),
  (0x10B80, 0x5053414C544552205041484C415649204C455454455220414C45504820),
  (0x10B81, 0x5053414C544552205041484C415649204C4554544552204245544820),
  (0x10B82, 0x5053414C544552205041484C415649204C45545445522047494D454C20),
  (0x10B83, 0x5053414C544552205041484C415649204C45545445522044414C45544820),
  (0x10B84, 0x5053414C544552205041484C415649204C455454455220484520),
  (0x10B85, 0x5053414C544552205041484C415649204C4554544552205741572D4159494E2D5245534820),
  (0x10B86, 0x5053414C544552205041484C415649204C4554544552205A4159494E20),
  (0x10B87, 0x5053414C544552205041484C415649204C4554544552204845544820),
  (0x10B88, 0x5053414C544552205041484C415649204C455454455220594F444820),
  (0x10B89, 0x5053414C544552205041484C415649204C4554544552204B41504820),
  (0x10B8A, 0x5053414C544552205041484C415649204C4554544552204C414D45444820),
  (0x10B8B, 0x5053414C544552205041484C415649204C4554544552204D454D2D514F504820),
  (0x10B8C, 0x5053414C544552205041484C415649204C4554544552204E554E20),
  (0x10B8D, 0x5053414C544552205041484C415649204C45545445522053414D454B4820),
  (0x10B8E, 0x5053414C544552205041484C415649204C455454455220504520),
  (0x10B8F, 0x5053414C544552205041484C415649204C455454455220534144484520),
  (0x10B90, 0x5053414C544552205041484C415649204C4554544552205348494E20),
  (0x10B91, 0x5053414C544552205041484C415649204C45545445522054415720),
  (0x10B99, 0x5053414C544552205041484C4156492053454354494F4E204D41524B20),
  (0x10B9A, 0x5053414C544552205041484C415649205455524E45442053454354494F4E204D41524B20)]
def names_290 : List (Nat × Nat) := [
  (0x10B9B, 0x5053414C544552205041484C41564920464F555220444F545320574954482043524F535320),
  (0x10B9C, 0x5053414C544552205041484C41564920464F555220444F5453205749544820444F5420),
  (0x10BA9, 0x5053414C544552205041484C415649204E554D424552204F4E4520),
  (0x10BAA, 0x5053414C544552205041484C415649204E554D4245522054574F20),
  (0x10BAB, 0x5053414C544552205041484C415649204E554D42455220544852454520),
  (0x10BAC, 0x5053414C544552205041484C415649204E554D42455220464F555220),
  (0x10BAD, 0x5053414C544552205041484C415649204E554D4245522054454E20),
  (0x10BAE, 0x5053414C544552205041484C415649204E554D424552205457454E545920),
  (0x10BAF, 0x5053414C544552205041484C415649204E554D424552204F4E452048554E4452454420),
  (0x10C00, 0x4F4C44205455524B4943204C4554544552204F524B484F4E204120),
  (0x10C01, 0x4F4C44205455524B4943204C45545445522059454E49534549204120),
  (0x10C02, 0x4F4C44205455524B4943204C45545445522059454E4953454920414520),
  (0x10C03, 0x4F4C44205455524B4943204C4554544552204F524B484F4E204920),
  (0x10C04, 0x4F4C44205455524B4943204C45545445522059454E49534549204920),
  (0x10C05, 0x4F4C44205455524B4943204C45545445522059454E49534549204520),
  (0x10C06, 0x4F4C44205455524B4943204C4554544552204F524B484F4E204F20),
  (0x10C07, 0x4F4C44205455524B4943204C4554544552204F524B484F4E204F4520),
  (0x10C08, 0x4F4C44205455524B4943204C45545445522059454E49534549204F4520),
  (0x10C09, 0x4F4C44205455524B4943204C4554544552204F524B484F4E20414220),
  (0x10C0A, 0x4F4C44205455524B4943204C45545445522059454E4953454920414220),
  (0x10C0B, 0x4F4C44205455524B4943204C4554544552204F524B484F4E2041454220),
  (0x10C0C, 0x4F4C44205455524B4943204C45545445522059454E495345492041454220),
  (0x10C0D, 0x4F4C44205455524B4943204C4554544552204F524B484F4E20414720),
  (0x10C0E, 0x4F4C44205455524B4943204C45545445522059454E4953454920414720),
  (0x10C0F, 0x4F4C44205455524B4943204C4554544552204F524B484F4E2041454720),
  (0x10C10, 0x4F4C44205455524B4943204C45545445522059454E495345492041454720),
  (0x10C11, 0x4F4C44205455524B4943204C4554544552204F524B484F4E20414420),
  (0x10C12, 0x4F4C44205455524B4943204C45545445522059454E4953454920414420),
  (0x10C13, 0x4F4C44205455524B4943204C4554544552204F524B484F4E2041454420),
  (0x10C14, 0x4F4C44205455524B4943204C4554544552204F524B484F4E20455A20),
  (0x10C15, 0x4F4C44205455524B4943204C45545445522059454E4953454920455A20),
  (0x10C16, 0x4F4C44205455524B4943204C4554544552204F524B484F4E20415920),
  (0x10C17, 0x4F4C44205455524B4943204C45545445522059454E4953454920415920),
  (0x10C18, 0x4F4C44205455524B4943204C4554544552204F524B484F4E2041455920),
  (0x10C19, 0x4F4C44205455524B4943204C45545445522059454E495345492041455920),
  (0x10C1A, 0x4F4C44205455524B4943204C4554544552204F524B484F4E2041454B20),
  (0x10C1B, 0x4F4C44205455524B4943204C45545445522059454E495345492041454B20),
  (0x10C1C, 0x4F4C44205455524B4943204C4554544552204F524B484F4E204F454B20),
  (0x10C1D, 0x4F4C44205455524B4943204C45545445522059454E49534549204F454B20),
  (0x10C1E, 0x4F4C44205455524B4943204C4554544552204F524B484F4E20414C20),
  (0x10C1F, 0x4F4C44205455524B4943204C45545445522059454E4953454920414C20),
  (0x10C20, 0x4F4C44205455524B4943204C4554544552204F524B484F4E2041454C20),
  (0x10C21, 0x4F4C44205455524B4943204C4554544552204F524B484F4E20454C5420),
  (0x10C22, 0x4F4C44205455524B4943204C4554544552204F524B484F4E20454D20),
  (0x10C23, 0x4F4C44205455524B4943204C4554544552204F524B484F4E20414E20),
  (0x10C24, 0x4F4C44205455524B4943204C4554544552204F524B484F4E2041454E20),
  (0x10C25, 0x4F4C44205455524B4943204C45545445522059454E495345492041454E20),
  (0x10C26, 0x4F4C44205455524B4943204C4554544552204F524B484F4E20454E5420),
  (0x10C27, 0x4F4C44205455524B4943204C45545445522059454E4953454920454E5420),
  (0x10C28, 0x4F4C44205455524B4943204C4554544552204F524B484F4E20454E4320),
  (0x10C29, 0x4F4C44205455524B4943204C45545445522059454E4953454920454E4320),
  (0x10C2A, 0x4F4C44205455524B4943204C4554544552204F524B484F4E20454E5920),
  (0x10C2B, 0x4F4C44205455524B4943204C45545445522059454E4953454920454E5920),
  (0x10C2C, 0x4F4C44205455524B4943204C45545445522059454E4953454920414E4720),
  (0x10C2D, 0x4F4C44205455524B4943204C4554544552204F524B484F4E20454E4720),
  (0x10C2E, 0x4F4C44205455524B4943204C45545445522059454E495345492041454E4720),
  (0x10C2F, 0x4F4C44205455524B4943204C4554544552204F524B484F4E20455020),
  (0x10C30, 0x4F4C44205455524B4943204C4554544552204F524B484F4E204F5020),
  (0x10C31, 0x4F4C44205455524B4943204C4554544552204F524B484F4E20494320),
  (0x10C32, 0x4F4C44205455524B4943204C4554544552204F524B484F4E20454320),
  (0x10C33, 0x4F4C44205455524B4943204C45545445522059454E4953454920454320),
  (0x10C34, 0x4F4C44205455524B4943204C4554544552204F524B484F4E20415120),
  (0x10C35, 0x4F4C44205455524B4943204C45545445522059454E4953454920415120),
  (0x10C36, 0x4F4C44205455524B4943204C4554544552204F524B484F4E20495120)]
def names_291 : List (Nat × Nat) := [
  (0x10C37, 0x4F4C44205455524B4943204C45545445522059454E4953454920495120),
  (0x10C38, 0x4F4C44205455524B4943204C4554544552204F524B484F4E204F5120),
  (0x10C39, 0x4F4C44205455524B4943204C45545445522059454E49534549204F5120),
  (0x10C3A, 0x4F4C44205455524B4943204C4554544552204F524B484F4E20415220),
  (0x10C3B, 0x4F4C44205455524B4943204C45545445522059454E4953454920415220),
  (0x10C3C, 0x4F4C44205455524B4943204C4554544552204F524B484F4E2041455220),
  (0x10C3D, 0x4F4C44205455524B4943204C4554544552204F524B484F4E20415320),
  (0x10C3E, 0x4F4C44205455524B4943204C4554544552204F524B484F4E2041455320),
  (0x10C3F, 0x4F4C44205455524B4943204C4554544552204F524B484F4E2041534820),
  (0x10C40, 0x4F4C44205455524B4943204C45545445522059454E495345492041534820),
  (0x10C41, 0x4F4C44205455524B4943204C4554544552204F524B484F4E2045534820),
  (0x10C42, 0x4F4C44205455524B4943204C45545445522059454E495345492045534820),
  (0x10C43, 0x4F4C44205455524B4943204C4554544552204F524B484F4E20415420),
  (0x10C44, 0x4F4C44205455524B4943204C45545445522059454E4953454920415420),
  (0x10C45, 0x4F4C44205455524B4943204C4554544552204F524B484F4E2041455420),
  (0x10C46, 0x4F4C44205455524B4943204C45545445522059454E495345492041455420),
  (0x10C47, 0x4F4C44205455524B4943204C4554544552204F524B484F4E204F5420),
  (0x10C48, 0x4F4C44205455524B4943204C4554544552204F524B484F4E204241534820),
  (0x10C80, 0x4F4C442048554E47415249414E204341504954414C204C4554544552204120),
  (0x10C81, 0x4F4C442048554E47415249414E204341504954414C204C455454455220414120),
  (0x10C82, 0x4F4C442048554E47415249414E204341504954414C204C455454455220454220),
  (0x10C83, 0x4F4C442048554E47415249414E204341504954414C204C455454455220414D4220),
  (0x10C84, 0x4F4C442048554E47415249414E204341504954414C204C455454455220454320),
  (0x10C85, 0x4F4C442048554E47415249414E204341504954414C204C455454455220454E4320),
  (0x10C86, 0x4F4C442048554E47415249414E204341504954414C204C45545445522045435320),
  (0x10C87, 0x4F4C442048554E47415249414E204341504954414C204C455454455220454420),
  (0x10C88, 0x4F4C442048554E47415249414E204341504954414C204C455454455220414E4420),
  (0x10C89, 0x4F4C442048554E47415249414E204341504954414C204C4554544552204520),
  (0x10C8A, 0x4F4C442048554E47415249414E204341504954414C204C455454455220434C4F5345204520),
  (0x10C8B, 0x4F4C442048554E47415249414E204341504954414C204C455454455220454520),
  (0x10C8C, 0x4F4C442048554E47415249414E204341504954414C204C455454455220454620),
  (0x10C8D, 0x4F4C442048554E47415249414E204341504954414C204C455454455220454720),
  (0x10C8E, 0x4F4C442048554E47415249414E204341504954414C204C45545445522045475920),
  (0x10C8F, 0x4F4C442048554E47415249414E204341504954414C204C455454455220454820),
  (0x10C90, 0x4F4C442048554E47415249414E204341504954414C204C4554544552204920),
  (0x10C91, 0x4F4C442048554E47415249414E204341504954414C204C455454455220494920),
  (0x10C92, 0x4F4C442048554E47415249414E204341504954414C204C455454455220454A20),
  (0x10C93, 0x4F4C442048554E47415249414E204341504954414C204C455454455220454B20),
  (0x10C94, 0x4F4C442048554E47415249414E204341504954414C204C455454455220414B20),
  (0x10C95, 0x4F4C442048554E47415249414E204341504954414C204C455454455220554E4B20),
  (0x10C96, 0x4F4C442048554E47415249414E204341504954414C204C455454455220454C20),
  (0x10C97, 0x4F4C442048554E47415249414E204341504954414C204C455454455220454C5920),
  (0x10C98, 0x4F4C442048554E47415249414E204341504954414C204C455454455220454D20),
  (0x10C99, 0x4F4C442048554E47415249414E204341504954414C204C455454455220454E20),
  (0x10C9A, 0x4F4C442048554E47415249414E204341504954414C204C455454455220454E5920),
  (0x10C9B, 0x4F4C442048554E47415249414E204341504954414C204C4554544552204F20),
  (0x10C9C, 0x4F4C442048554E47415249414E204341504954414C204C4554544552204F4F20),
  (0x10C9D, 0x4F4C442048554E47415249414E204341504954414C204C4554544552204E494B4F4C5342555247204F4520),
  (0x10C9E, 0x4F4C442048554E47415249414E204341504954414C204C455454455220525544494D454E5441204F4520),
  (0x10C9F, 0x4F4C442048554E47415249414E204341504954414C204C4554544552204F454520),
  (0x10CA0, 0x4F4C442048554E47415249414E204341504954414C204C455454455220455020),
  (0x10CA1, 0x4F4C442048554E47415249414E204341504954414C204C455454455220454D5020),
  (0x10CA2, 0x4F4C442048554E47415249414E204341504954414C204C455454455220455220),
  (0x10CA3, 0x4F4C442048554E47415249414E204341504954414C204C45545445522053484F525420455220),
  (0x10CA4, 0x4F4C442048554E47415249414E204341504954414C204C455454455220455320),
  (0x10CA5, 0x4F4C442048554E47415249414E204341504954414C204C45545445522045535A20),
  (0x10CA6, 0x4F4C442048554E47415249414E204341504954414C204C455454455220455420),
  (0x10CA7, 0x4F4C442048554E47415249414E204341504954414C204C455454455220454E5420),
  (0x10CA8, 0x4F4C442048554E47415249414E204341504954414C204C45545445522045545920),
  (0x10CA9, 0x4F4C442048554E47415249414E204341504954414C204C45545445522045434820),
  (0x10CAA, 0x4F4C442048554E47415249414E204341504954414C204C4554544552205520),
  (0x10CAB, 0x4F4C442048554E47415249414E204341504954414C204C455454455220555520),
  (0x10CAC, 0x4F4C442048554E47415249414E204341504954414C204C4554544552204E494B4F4C534255524720554520),
  (0x10CAD, 0x4F4C442048554E47415249414E204341504954414C204C455454455220525544494D454E544120554520)]
def names_292 : List (Nat × Nat) := [
  (0x10CAE, 0x4F4C442048554E47415249414E204341504954414C204C455454455220455620),
  (0x10CAF, 0x4F4C442048554E47415249414E204341504954414C204C455454455220455A20),
  (0x10CB0, 0x4F4C442048554E47415249414E204341504954414C204C455454455220455A5320),
  (0x10CB1, 0x4F4C442048554E47415249414E204341504954414C204C455454455220454E542D534841504544205349474E20),
  (0x10CB2, 0x4F4C442048554E47415249414E204341504954414C204C455454455220555320),
  (0x10CC0, 0x4F4C442048554E47415249414E20534D414C4C204C4554544552204120),
  (0x10CC1, 0x4F4C442048554E47415249414E20534D414C4C204C455454455220414120),
  (0x10CC2, 0x4F4C442048554E47415249414E20534D414C4C204C455454455220454220),
  (0x10CC3, 0x4F4C442048554E47415249414E20534D414C4C204C455454455220414D4220),
  (0x10CC4, 0x4F4C442048554E47415249414E20534D414C4C204C455454455220454320),
  (0x10CC5, 0x4F4C442048554E47415249414E20534D414C4C204C455454455220454E4320),
  (0x10CC6, 0x4F4C442048554E47415249414E20534D414C4C204C45545445522045435320),
  (0x10CC7, 0x4F4C442048554E47415249414E20534D414C4C204C455454455220454420),
  (0x10CC8, 0x4F4C442048554E47415249414E20534D414C4C204C455454455220414E4420),
  (0x10CC9, 0x4F4C442048554E47415249414E20534D414C4C204C4554544552204520),
  (0x10CCA, 0x4F4C442048554E47415249414E20534D414C4C204C455454455220434C4F5345204520),
  (0x10CCB, 0x4F4C442048554E47415249414E20534D414C4C204C455454455220454520),
  (0x10CCC, 0x4F4C442048554E47415249414E20534D414C4C204C455454455220454620),
  (0x10CCD, 0x4F4C442048554E47415249414E20534D414C4C204C455454455220454720),
  (0x10CCE, 0x4F4C442048554E47415249414E20534D414C4C204C45545445522045475920),
  (0x10CCF, 0x4F4C442048554E47415249414E20534D414C4C204C455454455220454820),
  (0x10CD0, 0x4F4C442048554E47415249414E20534D414C4C204C4554544552204920),
  (0x10CD1, 0x4F4C442048554E47415249414E20534D414C4C204C455454455220494920),
  (0x10CD2, 0x4F4C442048554E47415249414E20534D414C4C204C455454455220454A20),
  (0x10CD3, 0x4F4C442048554E47415249414E20534D414C4C204C455454455220454B20),
  (0x10CD4, 0x4F4C442048554E47415249414E20534D414C4C204C455454455220414B20),
  (0x10CD5, 0x4F4C442048554E47415249414E20534D414C4C204C455454455220554E4B20),
  (0x10CD6, 0x4F4C442048554E47415249414E20534D414C4C204C455454455220454C20),
  (0x10CD7, 0x4F4C442048554E47415249414E20534D414C4C204C455454455220454C5920),
  (0x10CD8, 0x4F4C442048554E47415249414E20534D414C4C204C455454455220454D20),
  (0x10CD9, 0x4F4C442048554E47415249414E20534D414C4C204C455454455220454E20),
  (0x10CDA, 0x4F4C442048554E47415249414E20534D414C4C204C455454455220454E5920),
  (0x10CDB, 0x4F4C442048554E47415249414E20534D414C4C204C4554544552204F20),
  (0x10CDC, 0x4F4C442048554E47415249414E20534D414C4C204C4554544552204F4F20),
  (0x10CDD, 0x4F4C442048554E47415249414E20534D414C4C204C4554544552204E494B4F4C5342555247204F4520),
  (0x10CDE, 0x4F4C442048554E47415249414E20534D414C4C204C455454455220525544494D454E5441204F4520),
  (0x10CDF, 0x4F4C442048554E47415249414E20534D414C4C204C4554544552204F454520),
  (0x10CE0, 0x4F4C442048554E47415249414E20534D414C4C204C455454455220455020),
  (0x10CE1, 0x4F4C442048554E47415249414E20534D414C4C204C455454455220454D5020),
  (0x10CE2, 0x4F4C442048554E47415249414E20534D414C4C204C455454455220455220),
  (0x10CE3, 0x4F4C442048554E47415249414E20534D414C4C204C45545445522053484F525420455220),
  (0x10CE4, 0x4F4C442048554E47415249414E20534D414C4C204C455454455220455320),
  (0x10CE5, 0x4F4C442048554E47415249414E20534D414C4C204C45545445522045535A20),
  (0x10CE6, 0x4F4C442048554E47415249414E20534D414C4C204C455454455220455420),
  (0x10CE7, 0x4F4C442048554E47415249414E20534D414C4C204C455454455220454E5420),
  (0x10CE8, 0x4F4C442048554E47415249414E20534D414C4C204C45545445522045545920),
  (0x10CE9, 0x4F4C442048554E47415249414E20534D414C4C204C45545445522045434820),
  (0x10CEA, 0x4F4C442048554E47415249414E20534D414C4C204C4554544552205520),
  (0x10CEB, 0x4F4C442048554E47415249414E20534D414C4C204C455454455220555520),
  (0x10CEC, 0x4F4C442048554E47415249414E20534D414C4C204C4554544552204E494B4F4C534255524720554520),
  (0x10CED, 0x4F4C442048554E47415249414E20534D414C4C204C455454455220525544494D454E544120554520),
  (0x10CEE, 0x4F4C442048554E47415249414E20534D414C4C204C455454455220455620),
  (0x10CEF, 0x4F4C442048554E47415249414E20534D414C4C204C455454455220455A20),
  (0x10CF0, 0x4F4C442048554E47415249414E20534D414C4C204C455454455220455A5320),
  (0x10CF1, 0x4F4C442048554E47415249414E20534D414C4C204C455454455220454E542D534841504544205349474E20),
  (0x10CF2, 0x4F4C442048554E47415249414E20534D414C4C204C455454455220555320),
  (0x10CFA, 0x4F4C442048554E47415249414E204E554D424552204F4E4520),
  (0x10CFB, 0x4F4C442048554E47415249414E204E554D424552204649564520),
  (0x10CFC, 0x4F4C442048554E47415249414E204E554D4245522054454E20),
  (0x10CFD, 0x4F4C442048554E47415249414E204E554D42455220464946545920),
  (0x10CFE, 0x4F4C442048554E47415249414E204E554D424552204F4E452048554E4452454420),
  (0x10CFF, 0x4F4C442048554E47415249414E204E554D424552204F4E452054484F5553414E4420),
  (0x10E60, 0x52554D49204449474954204F4E4520),
  (0x10E61, 0x52554D492044494749542054574F20)]
def names_293 : List (Nat × Nat) := [
  (0x10E62, 0x52554D4920444947495420544852454520),
  (0x10E63, 0x52554D4920444947495420464F555220),
  (0x10E64, 0x52554D49204449474954204649564520),
  (0x10E65, 0x52554D492044494749542053495820),
  (0x10E66, 0x52554D4920444947495420534556454E20),
  (0x10E67, 0x52554D4920444947495420454947485420),
  (0x10E68, 0x52554D49204449474954204E494E4520),
  (0x10E69, 0x52554D49204E554D4245522054454E20),
  (0x10E6A, 0x52554D49204E554D424552205457454E545920),
  (0x10E6B, 0x52554D49204E554D4245522054484952545920),
  (0x10E6C, 0x52554D49204E554D42455220464F52545920),
  (0x10E6D, 0x52554D49204E554D42455220464946545920),
  (0x10E6E, 0x52554D49204E554D42455220534958545920),
  (0x10E6F, 0x52554D49204E554D42455220534556454E545920),
  (0x10E70, 0x52554D49204E554D4245522045494748545920),
  (0x10E71, 0x52554D49204E554D424552204E494E45545920),
  (0x10E72, 0x52554D49204E554D424552204F4E452048554E4452454420),
  (0x10E73, 0x52554D49204E554D4245522054574F2048554E4452454420),
  (0x10E74, 0x52554D49204E554D4245522054485245452048554E4452454420),
  (0x10E75, 0x52554D49204E554D42455220464F55522048554E4452454420),
  (0x10E76, 0x52554D49204E554D42455220464956452048554E4452454420),
  (0x10E77, 0x52554D49204E554D424552205349582048554E4452454420),
  (0x10E78, 0x52554D49204E554D42455220534556454E2048554E4452454420),
  (0x10E79, 0x52554D49204E554D4245522045494748542048554E4452454420),
  (0x10E7A, 0x52554D49204E554D424552204E494E452048554E4452454420),
  (0x10E7B, 0x52554D49204652414354494F4E204F4E452048414C4620),
  (0x10E7C, 0x52554D49204652414354494F4E204F4E45205155415254455220),
  (0x10E7D, 0x52554D49204652414354494F4E204F4E4520544849524420),
  (0x10E7E, 0x52554D49204652414354494F4E2054574F2054484952445320),
  (0x11000, 0x425241484D49205349474E2043414E44524142494E445520),
  (0x11001, 0x425241484D49205349474E20414E55535641524120),
  (0x11002, 0x425241484D49205349474E205649534152474120),
  (0x11003, 0x425241484D49205349474E204A494856414D554C49594120),
  (0x11004, 0x425241484D49205349474E2055504144484D414E49594120),
  (0x11005, 0x425241484D49204C4554544552204120),
  (0x11006, 0x425241484D49204C455454455220414120),
  (0x11007, 0x425241484D49204C4554544552204920),
  (0x11008, 0x425241484D49204C455454455220494920),
  (0x11009, 0x425241484D49204C4554544552205520),
  (0x1100A, 0x425241484D49204C455454455220555520),
  (0x1100B, 0x425241484D49204C455454455220564F43414C4943205220),
  (0x1100C, 0x425241484D49204C455454455220564F43414C494320525220),
  (0x1100D, 0x425241484D49204C455454455220564F43414C4943204C20),
  (0x1100E, 0x425241484D49204C455454455220564F43414C4943204C4C20),
  (0x1100F, 0x425241484D49204C4554544552204520),
  (0x11010, 0x425241484D49204C455454455220414920),
  (0x11011, 0x425241484D49204C4554544552204F20),
  (0x11012, 0x425241484D49204C455454455220415520),
  (0x11013, 0x425241484D49204C4554544552204B4120),
  (0x11014, 0x425241484D49204C4554544552204B484120),
  (0x11015, 0x425241484D49204C455454455220474120),
  (0x11016, 0x425241484D49204C45545445522047484120),
  (0x11017, 0x425241484D49204C4554544552204E474120),
  (0x11018, 0x425241484D49204C455454455220434120),
  (0x11019, 0x425241484D49204C45545445522043484120),
  (0x1101A, 0x425241484D49204C4554544552204A4120),
  (0x1101B, 0x425241484D49204C4554544552204A484120),
  (0x1101C, 0x425241484D49204C4554544552204E594120),
  (0x1101D, 0x425241484D49204C45545445522054544120),
  (0x1101E, 0x425241484D49204C4554544552205454484120),
  (0x1101F, 0x425241484D49204C45545445522044444120),
  (0x11020, 0x425241484D49204C4554544552204444484120),
  (0x11021, 0x425241484D49204C4554544552204E4E4120),
  (0x11022, 0x425241484D49204C455454455220544120)]
def names_294 : List (Nat × Nat) := [
  (0x11023, 0x425241484D49204C45545445522054484120),
  (0x11024, 0x425241484D49204C455454455220444120),
  (0x11025, 0x425241484D49204C45545445522044484120),
  (0x11026, 0x425241484D49204C4554544552204E4120),
  (0x11027, 0x425241484D49204C455454455220504120),
  (0x11028, 0x425241484D49204C45545445522050484120),
  (0x11029, 0x425241484D49204C455454455220424120),
  (0x1102A, 0x425241484D49204C45545445522042484120),
  (0x1102B, 0x425241484D49204C4554544552204D4120),
  (0x1102C, 0x425241484D49204C455454455220594120),
  (0x1102D, 0x425241484D49204C455454455220524120),
  (0x1102E, 0x425241484D49204C4554544552204C4120),
  (0x1102F, 0x425241484D49204C455454455220564120),
  (0x11030, 0x425241484D49204C45545445522053484120),
  (0x11031, 0x425241484D49204C45545445522053534120),
  (0x11032, 0x425241484D49204C455454455220534120),
  (0x11033, 0x425241484D49204C455454455220484120),
  (0x11034, 0x425241484D49204C4554544552204C4C4120),
  (0x11035, 0x425241484D49204C4554544552204F4C442054414D494C204C4C4C4120),
  (0x11036, 0x425241484D49204C4554544552204F4C442054414D494C2052524120),
  (0x11037, 0x425241484D49204C4554544552204F4C442054414D494C204E4E4E4120),
  (0x11038, 0x425241484D4920564F57454C205349474E20414120),
  (0x11039, 0x425241484D4920564F57454C205349474E2042484154544950524F4C5520414120),
  (0x1103A, 0x425241484D4920564F57454C205349474E204920),
  (0x1103B, 0x425241484D4920564F57454C205349474E20494920),
  (0x1103C, 0x425241484D4920564F57454C205349474E205520),
  (0x1103D, 0x425241484D4920564F57454C205349474E20555520),
  (0x1103E, 0x425241484D4920564F57454C205349474E20564F43414C4943205220),
  (0x1103F, 0x425241484D4920564F57454C205349474E20564F43414C494320525220),
  (0x11040, 0x425241484D4920564F57454C205349474E20564F43414C4943204C20),
  (0x11041, 0x425241484D4920564F57454C205349474E20564F43414C4943204C4C20),
  (0x11042, 0x425241484D4920564F57454C205349474E204520),
  (0x11043, 0x425241484D4920564F57454C205349474E20414920),
  (0x11044, 0x425241484D4920564F57454C205349474E204F20),
  (0x11045, 0x425241484D4920564F57454C205349474E20415520),
  (0x11046, 0x425241484D4920564952414D4120),
  (0x11047, 0x425241484D492044414E444120),
  (0x11048, 0x425241484D4920444F55424C452044414E444120),
  (0x11049, 0x425241484D492050554E4354554154494F4E20444F5420),
  (0x1104A, 0x425241484D492050554E4354554154494F4E20444F55424C4520444F5420),
  (0x1104B, 0x425241484D492050554E4354554154494F4E204C494E4520),
  (0x1104C, 0x425241484D492050554E4354554154494F4E204352455343454E542042415220),
  (0x1104D, 0x425241484D492050554E4354554154494F4E204C4F54555320),
  (0x11052, 0x425241484D49204E554D424552204F4E4520),
  (0x11053, 0x425241484D49204E554D4245522054574F20),
  (0x11054, 0x425241484D49204E554D42455220544852454520),
  (0x11055, 0x425241484D49204E554D42455220464F555220),
  (0x11056, 0x425241484D49204E554D424552204649564520),
  (0x11057, 0x425241484D49204E554D4245522053495820),
  (0x11058, 0x425241484D49204E554D42455220534556454E20),
  (0x11059, 0x425241484D49204E554D42455220454947485420),
  (0x1105A, 0x425241484D49204E554D424552204E494E4520),
  (0x1105B, 0x425241484D49204E554D4245522054454E20),
  (0x1105C, 0x425241484D49204E554D424552205457454E545920),
  (0x1105D, 0x425241484D49204E554D4245522054484952545920),
  (0x1105E, 0x425241484D49204E554D42455220464F52545920),
  (0x1105F, 0x425241484D49204E554D42455220464946545920),
  (0x11060, 0x425241484D49204E554D42455220534958545920),
  (0x11061, 0x425241484D49204E554D42455220534556454E545920),
  (0x11062, 0x425241484D49204E554D4245522045494748545920),
  (0x11063, 0x425241484D49204E554D424552204E494E45545920),
  (0x11064, 0x425241484D49204E554D424552204F4E452048554E4452454420),
  (0x11065, 0x425241484D49204E554D424552204F4E452054484F5553414E4420),
  (0x11066, 0x425241484D49204449474954205A45524F20)]
def names_295 : List (Nat × Nat) := [
  (0x11067, 0x425241484D49204449474954204F4E4520),
  (0x11068, 0x425241484D492044494749542054574F20),
  (0x11069, 0x425241484D4920444947495420544852454520),
  (0x1106A, 0x425241484D4920444947495420464F555220),
  (0x1106B, 0x425241484D49204449474954204649564520),
  (0x1106C, 0x425241484D492044494749542053495820),
  (0x1106D, 0x425241484D4920444947495420534556454E20),
  (0x1106E, 0x425241484D4920444947495420454947485420),
  (0x1106F, 0x425241484D49204449474954204E494E4520),
  (0x1107F, 0x425241484D49204E554D424552204A4F494E455220),
  (0x11080, 0x4B4149544849205349474E2043414E44524142494E445520),
  (0x11081, 0x4B4149544849205349474E20414E55535641524120),
  (0x11082, 0x4B4149544849205349474E205649534152474120),
  (0x11083, 0x4B4149544849204C4554544552204120),
  (0x11084, 0x4B4149544849204C455454455220414120),
  (0x11085, 0x4B4149544849204C4554544552204920),
  (0x11086, 0x4B4149544849204C455454455220494920),
  (0x11087, 0x4B4149544849204C4554544552205520),
  (0x11088, 0x4B4149544849204C455454455220555520),
  (0x11089, 0x4B4149544849204C4554544552204520),
  (0x1108A, 0x4B4149544849204C455454455220414920),
  (0x1108B, 0x4B4149544849204C4554544552204F20),
  (0x1108C, 0x4B4149544849204C455454455220415520),
  (0x1108D, 0x4B4149544849204C4554544552204B4120),
  (0x1108E, 0x4B4149544849204C4554544552204B484120),
  (0x1108F, 0x4B4149544849204C455454455220474120),
  (0x11090, 0x4B4149544849204C45545445522047484120),
  (0x11091, 0x4B4149544849204C4554544552204E474120),
  (0x11092, 0x4B4149544849204C455454455220434120),
  (0x11093, 0x4B4149544849204C45545445522043484120),
  (0x11094, 0x4B4149544849204C4554544552204A4120),
  (0x11095, 0x4B4149544849204C4554544552204A484120),
  (0x11096, 0x4B4149544849204C4554544552204E594120),
  (0x11097, 0x4B4149544849204C45545445522054544120),
  (0x11098, 0x4B4149544849204C4554544552205454484120),
  (0x11099, 0x4B4149544849204C45545445522044444120),
  (0x1109A, 0x4B4149544849204C455454455220444444484120),
  (0x1109B, 0x4B4149544849204C4554544552204444484120),
  (0x1109C, 0x4B4149544849204C45545445522052484120),
  (0x1109D, 0x4B4149544849204C4554544552204E4E4120),
  (0x1109E, 0x4B4149544849204C455454455220544120),
  (0x1109F, 0x4B4149544849204C45545445522054484120),
  (0x110A0, 0x4B4149544849204C455454455220444120),
  (0x110A1, 0x4B4149544849204C45545445522044484120),
  (0x110A2, 0x4B4149544849204C4554544552204E4120),
  (0x110A3, 0x4B4149544849204C455454455220504120),
  (0x110A4, 0x4B4149544849204C45545445522050484120),
  (0x110A5, 0x4B4149544849204C455454455220424120),
  (0x110A6, 0x4B4149544849204C45545445522042484120),
  (0x110A7, 0x4B4149544849204C4554544552204D4120),
  (0x110A8, 0x4B4149544849204C455454455220594120),
  (0x110A9, 0x4B4149544849204C455454455220524120),
  (0x110AA, 0x4B4149544849204C4554544552204C4120),
  (0x110AB, 0x4B4149544849204C455454455220564120),
  (0x110AC, 0x4B4149544849204C45545445522053484120),
  (0x110AD, 0x4B4149544849204C45545445522053534120),
  (0x110AE, 0x4B4149544849204C455454455220534120),
  (0x110AF, 0x4B4149544849204C455454455220484120),
  (0x110B0, 0x4B414954484920564F57454C205349474E20414120),
  (0x110B1, 0x4B414954484920564F57454C205349474E204920),
  (0x110B2, 0x4B414954484920564F57454C205349474E20494920),
  (0x110B3, 0x4B414954484920564F57454C205349474E205520),
  (0x110B4, 0x4B414954484920564F57454C205349474E20555520),
  (0x110B5, 0x4B414954484920564F57454C205349474E204520)]
def names_296 : List (Nat × Nat) := [
  (0x110B6, 0x4B414954484920564F57454C205349474E20414920),
  (0x110B7, 0x4B414954484920564F57454C205349474E204F20),
  (0x110B8, 0x4B414954484920564F57454C205349474E20415520),
  (0x110B9, 0x4B4149544849205349474E20564952414D4120),
  (0x110BA, 0x4B4149544849205349474E204E554B544120),
  (0x110BB, 0x4B414954484920414242524556494154494F4E205349474E20),
  (0x110BC, 0x4B414954484920454E554D45524154494F4E205349474E20),
  (0x110BD, 0x4B4149544849204E554D424552205349474E20),
  (0x110BE, 0x4B41495448492053454354494F4E204D41524B20),
  (0x110BF, 0x4B414954484920444F55424C452053454354494F4E204D41524B20),
  (0x110C0, 0x4B41495448492044414E444120),
  (0x110C1, 0x4B414954484920444F55424C452044414E444120),
  (0x110D0, 0x534F524120534F4D50454E47204C45545445522053414820),
  (0x110D1, 0x534F524120534F4D50454E47204C45545445522054414820),
  (0x110D2, 0x534F524120534F4D50454E47204C45545445522042414820),
  (0x110D3, 0x534F524120534F4D50454E47204C45545445522043414820),
  (0x110D4, 0x534F524120534F4D50454E47204C45545445522044414820),
  (0x110D5, 0x534F524120534F4D50454E47204C45545445522047414820),
  (0x110D6, 0x534F524120534F4D50454E47204C4554544552204D414820),
  (0x110D7, 0x534F524120534F4D50454E47204C4554544552204E47414820),
  (0x110D8, 0x534F524120534F4D50454E47204C4554544552204C414820),
  (0x110D9, 0x534F524120534F4D50454E47204C4554544552204E414820),
  (0x110DA, 0x534F524120534F4D50454E47204C45545445522056414820),
  (0x110DB, 0x534F524120534F4D50454E47204C45545445522050414820),
  (0x110DC, 0x534F524120534F4D50454E47204C45545445522059414820),
  (0x110DD, 0x534F524120534F4D50454E47204C45545445522052414820),
  (0x110DE, 0x534F524120534F4D50454E47204C45545445522048414820),
  (0x110DF, 0x534F524120534F4D50454E47204C4554544552204B414820),
  (0x110E0, 0x534F524120534F4D50454E47204C4554544552204A414820),
  (0x110E1, 0x534F524120534F4D50454E47204C4554544552204E59414820),
  (0x110E2, 0x534F524120534F4D50454E47204C455454455220414820),
  (0x110E3, 0x534F524120534F4D50454E47204C45545445522045454820),
  (0x110E4, 0x534F524120534F4D50454E47204C455454455220494820),
  (0x110E5, 0x534F524120534F4D50454E47204C455454455220554820),
  (0x110E6, 0x534F524120534F4D50454E47204C4554544552204F4820),
  (0x110E7, 0x534F524120534F4D50454E47204C455454455220454820),
  (0x110E8, 0x534F524120534F4D50454E47204C4554544552204D414520),
  (0x110F0, 0x534F524120534F4D50454E47204449474954205A45524F20),
  (0x110F1, 0x534F524120534F4D50454E47204449474954204F4E4520),
  (0x110F2, 0x534F524120534F4D50454E472044494749542054574F20),
  (0x110F3, 0x534F524120534F4D50454E4720444947495420544852454520),
  (0x110F4, 0x534F524120534F4D50454E4720444947495420464F555220),
  (0x110F5, 0x534F524120534F4D50454E47204449474954204649564520),
  (0x110F6, 0x534F524120534F4D50454E472044494749542053495820),
  (0x110F7, 0x534F524120534F4D50454E4720444947495420534556454E20),
  (0x110F8, 0x534F524120534F4D50454E4720444947495420454947485420),
  (0x110F9, 0x534F524120534F4D50454E47204449474954204E494E4520),
  (0x11100, 0x4348414B4D41205349474E2043414E44524142494E445520),
  (0x11101, 0x4348414B4D41205349474E20414E55535641524120),
  (0x11102, 0x4348414B4D41205349474E205649534152474120),
  (0x11103, 0x4348414B4D41204C455454455220414120),
  (0x11104, 0x4348414B4D41204C4554544552204920),
  (0x11105, 0x4348414B4D41204C4554544552205520),
  (0x11106, 0x4348414B4D41204C4554544552204520),
  (0x11107, 0x4348414B4D41204C4554544552204B414120),
  (0x11108, 0x4348414B4D41204C4554544552204B48414120),
  (0x11109, 0x4348414B4D41204C45545445522047414120),
  (0x1110A, 0x4348414B4D41204C4554544552204748414120),
  (0x1110B, 0x4348414B4D41204C4554544552204E47414120),
  (0x1110C, 0x4348414B4D41204C45545445522043414120),
  (0x1110D, 0x4348414B4D41204C4554544552204348414120),
  (0x1110E, 0x4348414B4D41204C4554544552204A414120),
  (0x1110F, 0x4348414B4D41204C4554544552204A48414120),
  (0x11110, 0x4348414B4D41204C4554544552204E59414120)]
def names_297 : List (Nat × Nat) := [
  (0x11111, 0x4348414B4D41204C4554544552205454414120),
  (0x11112, 0x4348414B4D41204C455454455220545448414120),
  (0x11113, 0x4348414B4D41204C4554544552204444414120),
  (0x11114, 0x4348414B4D41204C455454455220444448414120),
  (0x11115, 0x4348414B4D41204C4554544552204E4E414120),
  (0x11116, 0x4348414B4D41204C45545445522054414120),
  (0x11117, 0x4348414B4D41204C4554544552205448414120),
  (0x11118, 0x4348414B4D41204C45545445522044414120),
  (0x11119, 0x4348414B4D41204C4554544552204448414120),
  (0x1111A, 0x4348414B4D41204C4554544552204E414120),
  (0x1111B, 0x4348414B4D41204C45545445522050414120),
  (0x1111C, 0x4348414B4D41204C4554544552205048414120),
  (0x1111D, 0x4348414B4D41204C45545445522042414120),
  (0x1111E, 0x4348414B4D41204C4554544552204248414120),
  (0x1111F, 0x4348414B4D41204C4554544552204D414120),
  (0x11120, 0x4348414B4D41204C4554544552205959414120),
  (0x11121, 0x4348414B4D41204C45545445522059414120),
  (0x11122, 0x4348414B4D41204C45545445522052414120),
  (0x11123, 0x4348414B4D41204C4554544552204C414120),
  (0x11124, 0x4348414B4D41204C45545445522057414120),
  (0x11125, 0x4348414B4D41204C45545445522053414120),
  (0x11126, 0x4348414B4D41204C45545445522048414120),
  (0x11127, 0x4348414B4D4120564F57454C205349474E204120),
  (0x11128, 0x4348414B4D4120564F57454C205349474E204920),
  (0x11129, 0x4348414B4D4120564F57454C205349474E20494920),
  (0x1112A, 0x4348414B4D4120564F57454C205349474E205520),
  (0x1112B, 0x4348414B4D4120564F57454C205349474E20555520),
  (0x1112C, 0x4348414B4D4120564F57454C205349474E204520),
  (0x1112D, 0x4348414B4D4120564F57454C205349474E20414920),
  (0x1112E, 0x4348414B4D4120564F57454C205349474E204F20),
  (0x1112F, 0x4348414B4D4120564F57454C205349474E20415520),
  (0x11130, 0x4348414B4D4120564F57454C205349474E204F4920),
  (0x11131, 0x4348414B4D41204F204D41524B20),
  (0x11132, 0x4348414B4D41204155204D41524B20),
  (0x11133, 0x4348414B4D4120564952414D4120),
  (0x11134, 0x4348414B4D41204D41415959414120),
  (0x11136, 0x4348414B4D41204449474954205A45524F20),
  (0x11137, 0x4348414B4D41204449474954204F4E4520),
  (0x11138, 0x4348414B4D412044494749542054574F20),
  (0x11139, 0x4348414B4D4120444947495420544852454520),
  (0x1113A, 0x4348414B4D4120444947495420464F555220),
  (0x1113B, 0x4348414B4D41204449474954204649564520),
  (0x1113C, 0x4348414B4D412044494749542053495820),
  (0x1113D, 0x4348414B4D4120444947495420534556454E20),
  (0x1113E, 0x4348414B4D4120444947495420454947485420),
  (0x1113F, 0x4348414B4D41204449474954204E494E4520),
  (0x11140, 0x4348414B4D412053454354494F4E204D41524B20),
  (0x11141, 0x4348414B4D412044414E444120),
  (0x11142, 0x4348414B4D4120444F55424C452044414E444120),
  (0x11143, 0x4348414B4D41205155455354494F4E204D41524B20),
  (0x11150, 0x4D4148414A414E49204C4554544552204120),
  (0x11151, 0x4D4148414A414E49204C4554544552204920),
  (0x11152, 0x4D4148414A414E49204C4554544552205520),
  (0x11153, 0x4D4148414A414E49204C4554544552204520),
  (0x11154, 0x4D4148414A414E49204C4554544552204F20),
  (0x11155, 0x4D4148414A414E49204C4554544552204B4120),
  (0x11156, 0x4D4148414A414E49204C4554544552204B484120),
  (0x11157, 0x4D4148414A414E49204C455454455220474120),
  (0x11158, 0x4D4148414A414E49204C45545445522047484120),
  (0x11159, 0x4D4148414A414E49204C455454455220434120),
  (0x1115A, 0x4D4148414A414E49204C45545445522043484120),
  (0x1115B, 0x4D4148414A414E49204C4554544552204A4120),
  (0x1115C, 0x4D4148414A414E49204C4554544552204A484120),
  (0x1115D, 0x4D4148414A414E49204C4554544552204E594120)]
def names_298 : List (Nat × Nat) := [
  (0x1115E, 0x4D4148414A414E49204C45545445522054544120),
  (0x1115F, 0x4D4148414A414E49204C4554544552205454484120),
  (0x11160, 0x4D4148414A414E49204C45545445522044444120),
  (0x11161, 0x4D4148414A414E49204C4554544552204444484120),
  (0x11162, 0x4D4148414A414E49204C4554544552204E4E4120),
  (0x11163, 0x4D4148414A414E49204C455454455220544120),
  (0x11164, 0x4D4148414A414E49204C45545445522054484120),
  (0x11165, 0x4D4148414A414E49204C455454455220444120),
  (0x11166, 0x4D4148414A414E49204C45545445522044484120),
  (0x11167, 0x4D4148414A414E49204C4554544552204E4120),
  (0x11168, 0x4D4148414A414E49204C455454455220504120),
  (0x11169, 0x4D4148414A414E49204C45545445522050484120),
  (0x1116A, 0x4D4148414A414E49204C455454455220424120),
  (0x1116B, 0x4D4148414A414E49204C45545445522042484120),
  (0x1116C, 0x4D4148414A414E49204C4554544552204D4120),
  (0x1116D, 0x4D4148414A414E49204C455454455220524120),
  (0x1116E, 0x4D4148414A414E49204C4554544552204C4120),
  (0x1116F, 0x4D4148414A414E49204C455454455220564120),
  (0x11170, 0x4D4148414A414E49204C455454455220534120),
  (0x11171, 0x4D4148414A414E49204C455454455220484120),
  (0x11172, 0x4D4148414A414E49204C45545445522052524120),
  (0x11173, 0x4D4148414A414E49205349474E204E554B544120),
  (0x11174, 0x4D4148414A414E4920414242524556494154494F4E205349474E20),
  (0x11175, 0x4D4148414A414E492053454354494F4E204D41524B20),
  (0x11176, 0x4D4148414A414E49204C49474154555245205348524920),
  (0x11180, 0x53484152414441205349474E2043414E44524142494E445520),
  (0x11181, 0x53484152414441205349474E20414E55535641524120),
  (0x11182, 0x53484152414441205349474E205649534152474120),
  (0x11183, 0x53484152414441204C4554544552204120),
  (0x11184, 0x53484152414441204C455454455220414120),
  (0x11185, 0x53484152414441204C4554544552204920),
  (0x11186, 0x53484152414441204C455454455220494920),
  (0x11187, 0x53484152414441204C4554544552205520),
  (0x11188, 0x53484152414441204C455454455220555520),
  (0x11189, 0x53484152414441204C455454455220564F43414C4943205220),
  (0x1118A, 0x53484152414441204C455454455220564F43414C494320525220),
  (0x1118B, 0x53484152414441204C455454455220564F43414C4943204C20),
  (0x1118C, 0x53484152414441204C455454455220564F43414C4943204C4C20),
  (0x1118D, 0x53484152414441204C4554544552204520),
  (0x1118E, 0x53484152414441204C455454455220414920),
  (0x1118F, 0x53484152414441204C4554544552204F20),
  (0x11190, 0x53484152414441204C455454455220415520),
  (0x11191, 0x53484152414441204C4554544552204B4120),
  (0x11192, 0x53484152414441204C4554544552204B484120),
  (0x11193, 0x53484152414441204C455454455220474120),
  (0x11194, 0x53484152414441204C45545445522047484120),
  (0x11195, 0x53484152414441204C4554544552204E474120),
  (0x11196, 0x53484152414441204C455454455220434120),
  (0x11197, 0x53484152414441204C45545445522043484120),
  (0x11198, 0x53484152414441204C4554544552204A4120),
  (0x11199, 0x53484152414441204C4554544552204A484120),
  (0x1119A, 0x53484152414441204C4554544552204E594120),
  (0x1119B, 0x53484152414441204C45545445522054544120),
  (0x1119C, 0x53484152414441204C4554544552205454484120),
  (0x1119D, 0x53484152414441204C45545445522044444120),
  (0x1119E, 0x53484152414441204C4554544552204444484120),
  (0x1119F, 0x53484152414441204C4554544552204E4E4120),
  (0x111A0, 0x53484152414441204C455454455220544120),
  (0x111A1, 0x53484152414441204C45545445522054484120),
  (0x111A2, 0x53484152414441204C455454455220444120),
  (0x111A3, 0x53484152414441204C45545445522044484120),
  (0x111A4, 0x53484152414441204C4554544552204E4120),
  (0x111A5, 0x53484152414441204C455454455220504120),
  (0x111A6, 0x53484152414441204C45545445522050484120)]
def names_299 : List (Nat × Nat) := [
  (0x111A7, 0x53484152414441204C455454455220424120),
  (0x111A8, 0x53484152414441204C45545445522042484120),
  (0x111A9, 0x53484152414441204C4554544552204D4120),
  (0x111AA, 0x53484152414441204C455454455220594120),
  (0x111AB, 0x53484152414441204C455454455220524120),
  (0x111AC, 0x53484152414441204C4554544552204C4120),
  (0x111AD, 0x53484152414441204C4554544552204C4C4120),
  (0x111AE, 0x53484152414441204C455454455220564120),
  (0x111AF, 0x53484152414441204C45545445522053484120),
  (0x111B0, 0x53484152414441204C45545445522053534120),
  (0x111B1, 0x53484152414441204C455454455220534120),
  (0x111B2, 0x53484152414441204C455454455220484120),
  (0x111B3, 0x5348415241444120564F57454C205349474E20414120),
  (0x111B4, 0x5348415241444120564F57454C205349474E204920),
  (0x111B5, 0x5348415241444120564F57454C205349474E20494920),
  (0x111B6, 0x5348415241444120564F57454C205349474E205520),
  (0x111B7, 0x5348415241444120564F57454C205349474E20555520),
  (0x111B8, 0x5348415241444120564F57454C205349474E20564F43414C4943205220),
  (0x111B9, 0x5348415241444120564F57454C205349474E20564F43414C494320525220),
  (0x111BA, 0x5348415241444120564F57454C205349474E20564F43414C4943204C20),
  (0x111BB, 0x5348415241444120564F57454C205349474E20564F43414C4943204C4C20),
  (0x111BC, 0x5348415241444120564F57454C205349474E204520),
  (0x111BD, 0x5348415241444120564F57454C205349474E20414920),
  (0x111BE, 0x5348415241444120564F57454C205349474E204F20),
  (0x111BF, 0x5348415241444120564F57454C205349474E20415520),
  (0x111C0, 0x53484152414441205349474E20564952414D4120),
  (0x111C1, 0x53484152414441205349474E20415641475241484120),
  (0x111C2, 0x53484152414441205349474E204A494856414D554C49594120),
  (0x111C3, 0x53484152414441205349474E2055504144484D414E49594120),
  (0x111C4, 0x53484152414441204F4D20),
  (0x111C5, 0x534841524144412044414E444120),
  (0x111C6, 0x5348415241444120444F55424C452044414E444120),
  (0x111C7, 0x5348415241444120414242524556494154494F4E205349474E20),
  (0x111C8, 0x5348415241444120534550415241544F5220),
  (0x111C9, 0x534841524144412053414E444849204D41524B20),
  (0x111CA, 0x53484152414441205349474E204E554B544120),
  (0x111CB, 0x5348415241444120564F57454C204D4F444946494552204D41524B20),
  (0x111CC, 0x534841524144412045585452412053484F525420564F57454C204D41524B20),
  (0x111CD, 0x53484152414441205355545241204D41524B20),
  (0x111D0, 0x53484152414441204449474954205A45524F20),
  (0x111D1, 0x53484152414441204449474954204F4E4520),
  (0x111D2, 0x534841524144412044494749542054574F20),
  (0x111D3, 0x5348415241444120444947495420544852454520),
  (0x111D4, 0x5348415241444120444947495420464F555220),
  (0x111D5, 0x53484152414441204449474954204649564520),
  (0x111D6, 0x534841524144412044494749542053495820),
  (0x111D7, 0x5348415241444120444947495420534556454E20),
  (0x111D8, 0x5348415241444120444947495420454947485420),
  (0x111D9, 0x53484152414441204449474954204E494E4520),
  (0x111DA, 0x5348415241444120454B414D20),
  (0x111DB, 0x53484152414441205349474E205349444448414D20),
  (0x111DC, 0x5348415241444120484541445354524F4B4520),
  (0x111DD, 0x5348415241444120434F4E54494E554154494F4E205349474E20),
  (0x111DE, 0x534841524144412053454354494F4E204D41524B2D3120),
  (0x111DF, 0x534841524144412053454354494F4E204D41524B2D3220),
  (0x111E1, 0x53494E48414C412041524348414943204449474954204F4E4520),
  (0x111E2, 0x53494E48414C4120415243484149432044494749542054574F20),
  (0x111E3, 0x53494E48414C41204152434841494320444947495420544852454520),
  (0x111E4, 0x53494E48414C41204152434841494320444947495420464F555220),
  (0x111E5, 0x53494E48414C412041524348414943204449474954204649564520),
  (0x111E6, 0x53494E48414C4120415243484149432044494749542053495820),
  (0x111E7, 0x53494E48414C41204152434841494320444947495420534556454E20),
  (0x111E8, 0x53494E48414C41204152434841494320444947495420454947485420),
  (0x111E9, 0x53494E48414C412041524348414943204449474954204E494E4520)]
def names_300 : List (Nat × Nat) := [
  (0x111EA, 0x53494E48414C412041524348414943204E554D4245522054454E20),
  (0x111EB, 0x53494E48414C412041524348414943204E554D424552205457454E545920),
  (0x111EC, 0x53494E48414C412041524348414943204E554D4245522054484952545920),
  (0x111ED, 0x53494E48414C412041524348414943204E554D42455220464F52545920),
  (0x111EE, 0x53494E48414C412041524348414943204E554D42455220464946545920),
  (0x111EF, 0x53494E48414C412041524348414943204E554D42455220534958545920),
  (0x111F0, 0x53494E48414C412041524348414943204E554D42455220534556454E545920),
  (0x111F1, 0x53494E48414C412041524348414943204E554D4245522045494748545920),
  (0x111F2, 0x53494E48414C412041524348414943204E554D424552204E494E45545920),
  (0x111F3, 0x53494E48414C412041524348414943204E554D424552204F4E452048554E4452454420),
  (0x111F4, 0x53494E48414C412041524348414943204E554D424552204F4E452054484F5553414E4420),
  (0x11200, 0x4B484F4A4B49204C4554544552204120),
  (0x11201, 0x4B484F4A4B49204C455454455220414120),
  (0x11202, 0x4B484F4A4B49204C4554544552204920),
  (0x11203, 0x4B484F4A4B49204C4554544552205520),
  (0x11204, 0x4B484F4A4B49204C4554544552204520),
  (0x11205, 0x4B484F4A4B49204C455454455220414920),
  (0x11206, 0x4B484F4A4B49204C4554544552204F20),
  (0x11207, 0x4B484F4A4B49204C455454455220415520),
  (0x11208, 0x4B484F4A4B49204C4554544552204B4120),
  (0x11209, 0x4B484F4A4B49204C4554544552204B484120),
  (0x1120A, 0x4B484F4A4B49204C455454455220474120),
  (0x1120B, 0x4B484F4A4B49204C45545445522047474120),
  (0x1120C, 0x4B484F4A4B49204C45545445522047484120),
  (0x1120D, 0x4B484F4A4B49204C4554544552204E474120),
  (0x1120E, 0x4B484F4A4B49204C455454455220434120),
  (0x1120F, 0x4B484F4A4B49204C45545445522043484120),
  (0x11210, 0x4B484F4A4B49204C4554544552204A4120),
  (0x11211, 0x4B484F4A4B49204C4554544552204A4A4120),
  (0x11213, 0x4B484F4A4B49204C4554544552204E594120),
  (0x11214, 0x4B484F4A4B49204C45545445522054544120),
  (0x11215, 0x4B484F4A4B49204C4554544552205454484120),
  (0x11216, 0x4B484F4A4B49204C45545445522044444120),
  (0x11217, 0x4B484F4A4B49204C4554544552204444484120),
  (0x11218, 0x4B484F4A4B49204C4554544552204E4E4120),
  (0x11219, 0x4B484F4A4B49204C455454455220544120),
  (0x1121A, 0x4B484F4A4B49204C45545445522054484120),
  (0x1121B, 0x4B484F4A4B49204C455454455220444120),
  (0x1121C, 0x4B484F4A4B49204C4554544552204444444120),
  (0x1121D, 0x4B484F4A4B49204C45545445522044484120),
  (0x1121E, 0x4B484F4A4B49204C4554544552204E4120),
  (0x1121F, 0x4B484F4A4B49204C455454455220504120),
  (0x11220, 0x4B484F4A4B49204C45545445522050484120),
  (0x11221, 0x4B484F4A4B49204C455454455220424120),
  (0x11222, 0x4B484F4A4B49204C45545445522042424120),
  (0x11223, 0x4B484F4A4B49204C45545445522042484120),
  (0x11224, 0x4B484F4A4B49204C4554544552204D4120),
  (0x11225, 0x4B484F4A4B49204C455454455220594120),
  (0x11226, 0x4B484F4A4B49204C455454455220524120),
  (0x11227, 0x4B484F4A4B49204C4554544552204C4120),
  (0x11228, 0x4B484F4A4B49204C455454455220564120),
  (0x11229, 0x4B484F4A4B49204C455454455220534120),
  (0x1122A, 0x4B484F4A4B49204C455454455220484120),
  (0x1122B, 0x4B484F4A4B49204C4554544552204C4C4120),
  (0x1122C, 0x4B484F4A4B4920564F57454C205349474E20414120),
  (0x1122D, 0x4B484F4A4B4920564F57454C205349474E204920),
  (0x1122E, 0x4B484F4A4B4920564F57454C205349474E20494920),
  (0x1122F, 0x4B484F4A4B4920564F57454C205349474E205520),
  (0x11230, 0x4B484F4A4B4920564F57454C205349474E204520),
  (0x11231, 0x4B484F4A4B4920564F57454C205349474E20414920),
  (0x11232, 0x4B484F4A4B4920564F57454C205349474E204F20),
  (0x11233, 0x4B484F4A4B4920564F57454C205349474E20415520),
  (0x11234, 0x4B484F4A4B49205349474E20414E55535641524120),
  (0x11235, 0x4B484F4A4B49205349474E20564952414D4120)]
def names_301 : List (Nat × Nat) := [
  (0x11236, 0x4B484F4A4B49205349474E204E554B544120),
  (0x11237, 0x4B484F4A4B49205349474E2053484144444120),
  (0x11238, 0x4B484F4A4B492044414E444120),
  (0x11239, 0x4B484F4A4B4920444F55424C452044414E444120),
  (0x1123A, 0x4B484F4A4B4920574F524420534550415241544F5220),
  (0x1123B, 0x4B484F4A4B492053454354494F4E204D41524B20),
  (0x1123C, 0x4B484F4A4B4920444F55424C452053454354494F4E204D41524B20),
  (0x1123D, 0x4B484F4A4B4920414242524556494154494F4E205349474E20),
  (0x1123E, 0x4B484F4A4B49205349474E2053554B554E20),
  (0x11280, 0x4D554C54414E49204C4554544552204120),
  (0x11281, 0x4D554C54414E49204C4554544552204920),
  (0x11282, 0x4D554C54414E49204C4554544552205520),
  (0x11283, 0x4D554C54414E49204C4554544552204520),
  (0x11284, 0x4D554C54414E49204C4554544552204B4120),
  (0x11285, 0x4D554C54414E49204C4554544552204B484120),
  (0x11286, 0x4D554C54414E49204C455454455220474120),
  (0x11288, 0x4D554C54414E49204C45545445522047484120),
  (0x1128A, 0x4D554C54414E49204C455454455220434120),
  (0x1128B, 0x4D554C54414E49204C45545445522043484120),
  (0x1128C, 0x4D554C54414E49204C4554544552204A4120),
  (0x1128D, 0x4D554C54414E49204C4554544552204A4A4120),
  (0x1128F, 0x4D554C54414E49204C4554544552204E594120),
  (0x11290, 0x4D554C54414E49204C45545445522054544120),
  (0x11291, 0x4D554C54414E49204C4554544552205454484120),
  (0x11292, 0x4D554C54414E49204C45545445522044444120),
  (0x11293, 0x4D554C54414E49204C4554544552204444444120),
  (0x11294, 0x4D554C54414E49204C4554544552204444484120),
  (0x11295, 0x4D554C54414E49204C4554544552204E4E4120),
  (0x11296, 0x4D554C54414E49204C455454455220544120),
  (0x11297, 0x4D554C54414E49204C45545445522054484120),
  (0x11298, 0x4D554C54414E49204C455454455220444120),
  (0x11299, 0x4D554C54414E49204C45545445522044484120),
  (0x1129A, 0x4D554C54414E49204C4554544552204E4120),
  (0x1129B, 0x4D554C54414E49204C455454455220504120),
  (0x1129C, 0x4D554C54414E49204C45545445522050484120),
  (0x1129D, 0x4D554C54414E49204C455454455220424120),
  (0x1129F, 0x4D554C54414E49204C45545445522042484120),
  (0x112A0, 0x4D554C54414E49204C4554544552204D4120),
  (0x112A1, 0x4D554C54414E49204C455454455220594120),
  (0x112A2, 0x4D554C54414E49204C455454455220524120),
  (0x112A3, 0x4D554C54414E49204C4554544552204C4120),
  (0x112A4, 0x4D554C54414E49204C455454455220564120),
  (0x112A5, 0x4D554C54414E49204C455454455220534120),
  (0x112A6, 0x4D554C54414E49204C455454455220484120),
  (0x112A7, 0x4D554C54414E49204C45545445522052524120),
  (0x112A8, 0x4D554C54414E49204C45545445522052484120),
  (0x112A9, 0x4D554C54414E492053454354494F4E204D41524B20),
  (0x112B0, 0x4B4855444157414449204C4554544552204120),
  (0x112B1, 0x4B4855444157414449204C455454455220414120),
  (0x112B2, 0x4B4855444157414449204C4554544552204920),
  (0x112B3, 0x4B4855444157414449204C455454455220494920),
  (0x112B4, 0x4B4855444157414449204C4554544552205520),
  (0x112B5, 0x4B4855444157414449204C455454455220555520),
  (0x112B6, 0x4B4855444157414449204C4554544552204520),
  (0x112B7, 0x4B4855444157414449204C455454455220414920),
  (0x112B8, 0x4B4855444157414449204C4554544552204F20),
  (0x112B9, 0x4B4855444157414449204C455454455220415520),
  (0x112BA, 0x4B4855444157414449204C4554544552204B4120),
  (0x112BB, 0x4B4855444157414449204C4554544552204B484120),
  (0x112BC, 0x4B4855444157414449204C455454455220474120),
  (0x112BD, 0x4B4855444157414449204C45545445522047474120),
  (0x112BE, 0x4B4855444157414449204C45545445522047484120),
  (0x112BF, 0x4B4855444157414449204C4554544552204E474120),
  (0x112C0, 0x4B4855444157414449204C455454455220434120)]
def names_302 : List (Nat × Nat) := [
  (0x112C1, 0x4B4855444157414449204C45545445522043484120),
  (0x112C2, 0x4B4855444157414449204C4554544552204A4120),
  (0x112C3, 0x4B4855444157414449204C4554544552204A4A4120),
  (0x112C4, 0x4B4855444157414449204C4554544552204A484120),
  (0x112C5, 0x4B4855444157414449204C4554544552204E594120),
  (0x112C6, 0x4B4855444157414449204C45545445522054544120),
  (0x112C7, 0x4B4855444157414449204C4554544552205454484120),
  (0x112C8, 0x4B4855444157414449204C45545445522044444120),
  (0x112C9, 0x4B4855444157414449204C4554544552204444444120),
  (0x112CA, 0x4B4855444157414449204C45545445522052524120),
  (0x112CB, 0x4B4855444157414449204C4554544552204444484120),
  (0x112CC, 0x4B4855444157414449204C4554544552204E4E4120),
  (0x112CD, 0x4B4855444157414449204C455454455220544120),
  (0x112CE, 0x4B4855444157414449204C45545445522054484120),
  (0x112CF, 0x4B4855444157414449204C455454455220444120),
  (0x112D0, 0x4B4855444157414449204C45545445522044484120),
  (0x112D1, 0x4B4855444157414449204C4554544552204E4120),
  (0x112D2, 0x4B4855444157414449204C455454455220504120),
  (0x112D3, 0x4B4855444157414449204C45545445522050484120),
  (0x112D4, 0x4B4855444157414449204C455454455220424120),
  (0x112D5, 0x4B4855444157414449204C45545445522042424120),
  (0x112D6, 0x4B4855444157414449204C45545445522042484120),
  (0x112D7, 0x4B4855444157414449204C4554544552204D4120),
  (0x112D8, 0x4B4855444157414449204C455454455220594120),
  (0x112D9, 0x4B4855444157414449204C455454455220524120),
  (0x112DA, 0x4B4855444157414449204C4554544552204C4120),
  (0x112DB, 0x4B4855444157414449204C455454455220564120),
  (0x112DC, 0x4B4855444157414449204C45545445522053484120),
  (0x112DD, 0x4B4855444157414449204C455454455220534120),
  (0x112DE, 0x4B4855444157414449204C455454455220484120),
  (0x112DF, 0x4B4855444157414449205349474E20414E55535641524120),
  (0x112E0, 0x4B485544415741444920564F57454C205349474E20414120),
  (0x112E1, 0x4B485544415741444920564F57454C205349474E204920),
  (0x112E2, 0x4B485544415741444920564F57454C205349474E20494920),
  (0x112E3, 0x4B485544415741444920564F57454C205349474E205520),
  (0x112E4, 0x4B485544415741444920564F57454C205349474E20555520),
  (0x112E5, 0x4B485544415741444920564F57454C205349474E204520),
  (0x112E6, 0x4B485544415741444920564F57454C205349474E20414920),
  (0x112E7, 0x4B485544415741444920564F57454C205349474E204F20),
  (0x112E8, 0x4B485544415741444920564F57454C205349474E20415520),
  (0x112E9, 0x4B4855444157414449205349474E204E554B544120),
  (0x112EA, 0x4B4855444157414449205349474E20564952414D4120),
  (0x112F0, 0x4B4855444157414449204449474954205A45524F20),
  (0x112F1, 0x4B4855444157414449204449474954204F4E4520),
  (0x112F2, 0x4B48554441574144492044494749542054574F20),
  (0x112F3, 0x4B485544415741444920444947495420544852454520),
  (0x112F4, 0x4B485544415741444920444947495420464F555220),
  (0x112F5, 0x4B4855444157414449204449474954204649564520),
  (0x112F6, 0x4B48554441574144492044494749542053495820),
  (0x112F7, 0x4B485544415741444920444947495420534556454E20),
  (0x112F8, 0x4B485544415741444920444947495420454947485420),
  (0x112F9, 0x4B4855444157414449204449474954204E494E4520),
  (0x11300, 0x4752414E544841205349474E20434F4D42494E494E4720414E5553564152412041424F564520),
  (0x11301, 0x4752414E544841205349474E2043414E44524142494E445520),
  (0x11302, 0x4752414E544841205349474E20414E55535641524120),
  (0x11303, 0x4752414E544841205349474E205649534152474120),
  (0x11305, 0x4752414E544841204C4554544552204120),
  (0x11306, 0x4752414E544841204C455454455220414120),
  (0x11307, 0x4752414E544841204C4554544552204920),
  (0x11308, 0x4752414E544841204C455454455220494920),
  (0x11309, 0x4752414E544841204C4554544552205520),
  (0x1130A, 0x4752414E544841204C455454455220555520),
  (0x1130B, 0x4752414E544841204C455454455220564F43414C4943205220),
  (0x1130C, 0x4752414E544841204C455454455220564F43414C4943204C20)]
def names_303 : List (Nat × Nat) := [
  (0x1130F, 0x4752414E544841204C455454455220454520),
  (0x11310, 0x4752414E544841204C455454455220414920),
  (0x11313, 0x4752414E544841204C4554544552204F4F20),
  (0x11314, 0x4752414E544841204C455454455220415520),
  (0x11315, 0x4752414E544841204C4554544552204B4120),
  (0x11316, 0x4752414E544841204C4554544552204B484120),
  (0x11317, 0x4752414E544841204C455454455220474120),
  (0x11318, 0x4752414E544841204C45545445522047484120),
  (0x11319, 0x4752414E544841204C4554544552204E474120),
  (0x1131A, 0x4752414E544841204C455454455220434120),
  (0x1131B, 0x4752414E544841204C45545445522043484120),
  (0x1131C, 0x4752414E544841204C4554544552204A4120),
  (0x1131D, 0x4752414E544841204C4554544552204A484120),
  (0x1131E, 0x4752414E544841204C4554544552204E594120),
  (0x1131F, 0x4752414E544841204C45545445522054544120),
  (0x11320, 0x4752414E544841204C4554544552205454484120),
  (0x11321, 0x4752414E544841204C45545445522044444120),
  (0x11322, 0x4752414E544841204C4554544552204444484120),
  (0x11323, 0x4752414E544841204C4554544552204E4E4120),
  (0x11324, 0x4752414E544841204C455454455220544120),
  (0x11325, 0x4752414E544841204C45545445522054484120),
  (0x11326, 0x4752414E544841204C455454455220444120),
  (0x11327, 0x4752414E544841204C45545445522044484120),
  (0x11328, 0x4752414E544841204C4554544552204E4120),
  (0x1132A, 0x4752414E544841204C455454455220504120),
  (0x1132B, 0x4752414E544841204C45545445522050484120),
  (0x1132C, 0x4752414E544841204C455454455220424120),
  (0x1132D, 0x4752414E544841204C45545445522042484120),
  (0x1132E, 0x4752414E544841204C4554544552204D4120),
  (0x1132F, 0x4752414E544841204C455454455220594120),
  (0x11330, 0x4752414E544841204C455454455220524120),
  (0x11332, 0x4752414E544841204C4554544552204C4120),
  (0x11333, 0x4752414E544841204C4554544552204C4C4120),
  (0x11335, 0x4752414E544841204C455454455220564120),
  (0x11336, 0x4752414E544841204C45545445522053484120),
  (0x11337, 0x4752414E544841204C45545445522053534120),
  (0x11338, 0x4752414E544841204C455454455220534120),
  (0x11339, 0x4752414E544841204C455454455220484120),
  (0x1133C, 0x4752414E544841205349474E204E554B544120),
  (0x1133D, 0x4752414E544841205349474E20415641475241484120),
  (0x1133E, 0x4752414E54484120564F57454C205349474E20414120),
  (0x1133F, 0x4752414E54484120564F57454C205349474E204920),
  (0x11340, 0x4752414E54484120564F57454C205349474E20494920),
  (0x11341, 0x4752414E54484120564F57454C205349474E205520),
  (0x11342, 0x4752414E54484120564F57454C205349474E20555520),
  (0x11343, 0x4752414E54484120564F57454C205349474E20564F43414C4943205220),
  (0x11344, 0x4752414E54484120564F57454C205349474E20564F43414C494320525220),
  (0x11347, 0x4752414E54484120564F57454C205349474E20454520),
  (0x11348, 0x4752414E54484120564F57454C205349474E20414920),
  (0x1134B, 0x4752414E54484120564F57454C205349474E204F4F20),
  (0x1134C, 0x4752414E54484120564F57454C205349474E20415520),
  (0x1134D, 0x4752414E544841205349474E20564952414D4120),
  (0x11350, 0x4752414E544841204F4D20),
  (0x11357, 0x4752414E544841204155204C454E475448204D41524B20),
  (0x1135D, 0x4752414E544841205349474E20504C55544120),
  (0x1135E, 0x4752414E544841204C455454455220564544494320414E55535641524120),
  (0x1135F, 0x4752414E544841204C455454455220564544494320444F55424C4520414E55535641524120),
  (0x11360, 0x4752414E544841204C455454455220564F43414C494320525220),
  (0x11361, 0x4752414E544841204C455454455220564F43414C4943204C4C20),
  (0x11362, 0x4752414E54484120564F57454C205349474E20564F43414C4943204C20),
  (0x11363, 0x4752414E54484120564F57454C205349474E20564F43414C4943204C4C20),
  (0x11366, 0x434F4D42494E494E47204752414E544841204449474954205A45524F20),
  (0x11367, 0x434F4D42494E494E47204752414E544841204449474954204F4E4520),
  (0x11368, 0x434F4D42494E494E47204752414E5448412044494749542054574F20)]
def names_304 : List (Nat × Nat) := [
  (0x11369, 0x434F4D42494E494E47204752414E54484120444947495420544852454520),
  (0x1136A, 0x434F4D42494E494E47204752414E54484120444947495420464F555220),
  (0x1136B, 0x434F4D42494E494E47204752414E544841204449474954204649564520),
  (0x1136C, 0x434F4D42494E494E47204752414E5448412044494749542053495820),
  (0x11370, 0x434F4D42494E494E47204752414E544841204C4554544552204120),
  (0x11371, 0x434F4D42494E494E47204752414E544841204C4554544552204B4120),
  (0x11372, 0x434F4D42494E494E47204752414E544841204C4554544552204E4120),
  (0x11373, 0x434F4D42494E494E47204752414E544841204C455454455220564920),
  (0x11374, 0x434F4D42494E494E47204752414E544841204C455454455220504120),
  (0x11400, 0x4E455741204C4554544552204120),
  (0x11401, 0x4E455741204C455454455220414120),
  (0x11402, 0x4E455741204C4554544552204920),
  (0x11403, 0x4E455741204C455454455220494920),
  (0x11404, 0x4E455741204C4554544552205520),
  (0x11405, 0x4E455741204C455454455220555520),
  (0x11406, 0x4E455741204C455454455220564F43414C4943205220),
  (0x11407, 0x4E455741204C455454455220564F43414C494320525220),
  (0x11408, 0x4E455741204C455454455220564F43414C4943204C20),
  (0x11409, 0x4E455741204C455454455220564F43414C4943204C4C20),
  (0x1140A, 0x4E455741204C4554544552204520),
  (0x1140B, 0x4E455741204C455454455220414920),
  (0x1140C, 0x4E455741204C4554544552204F20),
  (0x1140D, 0x4E455741204C455454455220415520),
  (0x1140E, 0x4E455741204C4554544552204B4120),
  (0x1140F, 0x4E455741204C4554544552204B484120),
  (0x11410, 0x4E455741204C455454455220474120),
  (0x11411, 0x4E455741204C45545445522047484120),
  (0x11412, 0x4E455741204C4554544552204E474120),
  (0x11413, 0x4E455741204C4554544552204E47484120),
  (0x11414, 0x4E455741204C455454455220434120),
  (0x11415, 0x4E455741204C45545445522043484120),
  (0x11416, 0x4E455741204C4554544552204A4120),
  (0x11417, 0x4E455741204C4554544552204A484120),
  (0x11418, 0x4E455741204C4554544552204E594120),
  (0x11419, 0x4E455741204C4554544552204E59484120),
  (0x1141A, 0x4E455741204C45545445522054544120),
  (0x1141B, 0x4E455741204C4554544552205454484120),
  (0x1141C, 0x4E455741204C45545445522044444120),
  (0x1141D, 0x4E455741204C4554544552204444484120),
  (0x1141E, 0x4E455741204C4554544552204E4E4120),
  (0x1141F, 0x4E455741204C455454455220544120),
  (0x11420, 0x4E455741204C45545445522054484120),
  (0x11421, 0x4E455741204C455454455220444120),
  (0x11422, 0x4E455741204C45545445522044484120),
  (0x11423, 0x4E455741204C4554544552204E4120),
  (0x11424, 0x4E455741204C4554544552204E484120),
  (0x11425, 0x4E455741204C455454455220504120),
  (0x11426, 0x4E455741204C45545445522050484120),
  (0x11427, 0x4E455741204C455454455220424120),
  (0x11428, 0x4E455741204C45545445522042484120),
  (0x11429, 0x4E455741204C4554544552204D4120),
  (0x1142A, 0x4E455741204C4554544552204D484120),
  (0x1142B, 0x4E455741204C455454455220594120),
  (0x1142C, 0x4E455741204C455454455220524120),
  (0x1142D, 0x4E455741204C45545445522052484120),
  (0x1142E, 0x4E455741204C4554544552204C4120),
  (0x1142F, 0x4E455741204C4554544552204C484120),
  (0x11430, 0x4E455741204C455454455220574120),
  (0x11431, 0x4E455741204C45545445522053484120),
  (0x11432, 0x4E455741204C45545445522053534120),
  (0x11433, 0x4E455741204C455454455220534120),
  (0x11434, 0x4E455741204C455454455220484120),
  (0x11435, 0x4E45574120564F57454C205349474E20414120),
  (0x11436, 0x4E45574120564F57454C205349474E204920)]
def names_305 : List (Nat × Nat) := [
  (0x11437, 0x4E45574120564F57454C205349474E20494920),
  (0x11438, 0x4E45574120564F57454C205349474E205520),
  (0x11439, 0x4E45574120564F57454C205349474E20555520),
  (0x1143A, 0x4E45574120564F57454C205349474E20564F43414C4943205220),
  (0x1143B, 0x4E45574120564F57454C205349474E20564F43414C494320525220),
  (0x1143C, 0x4E45574120564F57454C205349474E20564F43414C4943204C20),
  (0x1143D, 0x4E45574120564F57454C205349474E20564F43414C4943204C4C20),
  (0x1143E, 0x4E45574120564F57454C205349474E204520),
  (0x1143F, 0x4E45574120564F57454C205349474E20414920),
  (0x11440, 0x4E45574120564F57454C205349474E204F20),
  (0x11441, 0x4E45574120564F57454C205349474E20415520),
  (0x11442, 0x4E455741205349474E20564952414D4120),
  (0x11443, 0x4E455741205349474E2043414E44524142494E445520),
  (0x11444, 0x4E455741205349474E20414E55535641524120),
  (0x11445, 0x4E455741205349474E205649534152474120),
  (0x11446, 0x4E455741205349474E204E554B544120),
  (0x11447, 0x4E455741205349474E20415641475241484120),
  (0x11448, 0x4E455741205349474E2046494E414C20414E55535641524120),
  (0x11449, 0x4E455741204F4D20),
  (0x1144A, 0x4E4557412053494444484920),
  (0x1144B, 0x4E4557412044414E444120),
  (0x1144C, 0x4E45574120444F55424C452044414E444120),
  (0x1144D, 0x4E45574120434F4D4D4120),
  (0x1144E, 0x4E455741204741502046494C4C455220),
  (0x1144F, 0x4E45574120414242524556494154494F4E205349474E20),
  (0x11450, 0x4E455741204449474954205A45524F20),
  (0x11451, 0x4E455741204449474954204F4E4520),
  (0x11452, 0x4E4557412044494749542054574F20),
  (0x11453, 0x4E45574120444947495420544852454520),
  (0x11454, 0x4E45574120444947495420464F555220),
  (0x11455, 0x4E455741204449474954204649564520),
  (0x11456, 0x4E4557412044494749542053495820),
  (0x11457, 0x4E45574120444947495420534556454E20),
  (0x11458, 0x4E45574120444947495420454947485420),
  (0x11459, 0x4E455741204449474954204E494E4520),
  (0x1145B, 0x4E45574120504C414345484F4C444552204D41524B20),
  (0x1145D, 0x4E45574120494E53455254494F4E205349474E20),
  (0x11480, 0x5449524855544120414E4A4920),
  (0x11481, 0x54495248555441204C4554544552204120),
  (0x11482, 0x54495248555441204C455454455220414120),
  (0x11483, 0x54495248555441204C4554544552204920),
  (0x11484, 0x54495248555441204C455454455220494920),
  (0x11485, 0x54495248555441204C4554544552205520),
  (0x11486, 0x54495248555441204C455454455220555520),
  (0x11487, 0x54495248555441204C455454455220564F43414C4943205220),
  (0x11488, 0x54495248555441204C455454455220564F43414C494320525220),
  (0x11489, 0x54495248555441204C455454455220564F43414C4943204C20),
  (0x1148A, 0x54495248555441204C455454455220564F43414C4943204C4C20),
  (0x1148B, 0x54495248555441204C4554544552204520),
  (0x1148C, 0x54495248555441204C455454455220414920),
  (0x1148D, 0x54495248555441204C4554544552204F20),
  (0x1148E, 0x54495248555441204C455454455220415520),
  (0x1148F, 0x54495248555441204C4554544552204B4120),
  (0x11490, 0x54495248555441204C4554544552204B484120),
  (0x11491, 0x54495248555441204C455454455220474120),
  (0x11492, 0x54495248555441204C45545445522047484120),
  (0x11493, 0x54495248555441204C4554544552204E474120),
  (0x11494, 0x54495248555441204C455454455220434120),
  (0x11495, 0x54495248555441204C45545445522043484120),
  (0x11496, 0x54495248555441204C4554544552204A4120),
  (0x11497, 0x54495248555441204C4554544552204A484120),
  (0x11498, 0x54495248555441204C4554544552204E594120),
  (0x11499, 0x54495248555441204C45545445522054544120),
  (0x1149A, 0x54495248555441204C4554544552205454484120)]
def names_306 : List (Nat × Nat) := [
  (0x1149B, 0x54495248555441204C45545445522044444120),
  (0x1149C, 0x54495248555441204C4554544552204444484120),
  (0x1149D, 0x54495248555441204C4554544552204E4E4120),
  (0x1149E, 0x54495248555441204C455454455220544120),
  (0x1149F, 0x54495248555441204C45545445522054484120),
  (0x114A0, 0x54495248555441204C455454455220444120),
  (0x114A1, 0x54495248555441204C45545445522044484120),
  (0x114A2, 0x54495248555441204C4554544552204E4120),
  (0x114A3, 0x54495248555441204C455454455220504120),
  (0x114A4, 0x54495248555441204C45545445522050484120),
  (0x114A5, 0x54495248555441204C455454455220424120),
  (0x114A6, 0x54495248555441204C45545445522042484120),
  (0x114A7, 0x54495248555441204C4554544552204D4120),
  (0x114A8, 0x54495248555441204C455454455220594120),
  (0x114A9, 0x54495248555441204C455454455220524120),
  (0x114AA, 0x54495248555441204C4554544552204C4120),
  (0x114AB, 0x54495248555441204C455454455220564120),
  (0x114AC, 0x54495248555441204C45545445522053484120),
  (0x114AD, 0x54495248555441204C45545445522053534120),
  (0x114AE, 0x54495248555441204C455454455220534120),
  (0x114AF, 0x54495248555441204C455454455220484120),
  (0x114B0, 0x5449524855544120564F57454C205349474E20414120),
  (0x114B1, 0x5449524855544120564F57454C205349474E204920),
  (0x114B2, 0x5449524855544120564F57454C205349474E20494920),
  (0x114B3, 0x5449524855544120564F57454C205349474E205520),
  (0x114B4, 0x5449524855544120564F57454C205349474E20555520),
  (0x114B5, 0x5449524855544120564F57454C205349474E20564F43414C4943205220),
  (0x114B6, 0x5449524855544120564F57454C205349474E20564F43414C494320525220),
  (0x114B7, 0x5449524855544120564F57454C205349474E20564F43414C4943204C20),
  (0x114B8, 0x5449524855544120564F57454C205349474E20564F43414C4943204C4C20),
  (0x114B9, 0x5449524855544120564F57454C205349474E204520),
  (0x114BA, 0x5449524855544120564F57454C205349474E2053484F5254204520),
  (0x114BB, 0x5449524855544120564F57454C205349474E20414920),
  (0x114BC, 0x5449524855544120564F57454C205349474E204F20),
  (0x114BD, 0x5449524855544120564F57454C205349474E2053484F5254204F20),
  (0x114BE, 0x5449524855544120564F57454C205349474E20415520),
  (0x114BF, 0x54495248555441205349474E2043414E44524142494E445520),
  (0x114C0, 0x54495248555441205349474E20414E55535641524120),
  (0x114C1, 0x54495248555441205349474E205649534152474120),
  (0x114C2, 0x54495248555441205349474E20564952414D4120),
  (0x114C3, 0x54495248555441205349474E204E554B544120),
  (0x114C4, 0x54495248555441205349474E20415641475241484120),
  (0x114C5, 0x54495248555441204756414E4720),
  (0x114C6, 0x5449524855544120414242524556494154494F4E205349474E20),
  (0x114C7, 0x54495248555441204F4D20),
  (0x114D0, 0x54495248555441204449474954205A45524F20),
  (0x114D1, 0x54495248555441204449474954204F4E4520),
  (0x114D2, 0x544952485554412044494749542054574F20),
  (0x114D3, 0x5449524855544120444947495420544852454520),
  (0x114D4, 0x5449524855544120444947495420464F555220),
  (0x114D5, 0x54495248555441204449474954204649564520),
  (0x114D6, 0x544952485554412044494749542053495820),
  (0x114D7, 0x5449524855544120444947495420534556454E20),
  (0x114D8, 0x5449524855544120444947495420454947485420),
  (0x114D9, 0x54495248555441204449474954204E494E4520),
  (0x11580, 0x5349444448414D204C4554544552204120),
  (0x11581, 0x5349444448414D204C455454455220414120),
  (0x11582, 0x5349444448414D204C4554544552204920),
  (0x11583, 0x5349444448414D204C455454455220494920),
  (0x11584, 0x5349444448414D204C4554544552205520),
  (0x11585, 0x5349444448414D204C455454455220555520),
  (0x11586, 0x5349444448414D204C455454455220564F43414C4943205220),
  (0x11587, 0x5349444448414D204C455454455220564F43414C494320525220),
  (0x11588, 0x5349444448414D204C455454455220564F43414C4943204C20)]
def names_307 : List (Nat × Nat) := [
  (0x11589, 0x5349444448414D204C455454455220564F43414C4943204C4C20),
  (0x1158A, 0x5349444448414D204C4554544552204520),
  (0x1158B, 0x5349444448414D204C455454455220414920),
  (0x1158C, 0x5349444448414D204C4554544552204F20),
  (0x1158D, 0x5349444448414D204C455454455220415520),
  (0x1158E, 0x5349444448414D204C4554544552204B4120),
  (0x1158F, 0x5349444448414D204C4554544552204B484120),
  (0x11590, 0x5349444448414D204C455454455220474120),
  (0x11591, 0x5349444448414D204C45545445522047484120),
  (0x11592, 0x5349444448414D204C4554544552204E474120),
  (0x11593, 0x5349444448414D204C455454455220434120),
  (0x11594, 0x5349444448414D204C45545445522043484120),
  (0x11595, 0x5349444448414D204C4554544552204A4120),
  (0x11596, 0x5349444448414D204C4554544552204A484120),
  (0x11597, 0x5349444448414D204C4554544552204E594120),
  (0x11598, 0x5349444448414D204C45545445522054544120),
  (0x11599, 0x5349444448414D204C4554544552205454484120),
  (0x1159A, 0x5349444448414D204C45545445522044444120),
  (0x1159B, 0x5349444448414D204C4554544552204444484120),
  (0x1159C, 0x5349444448414D204C4554544552204E4E4120),
  (0x1159D, 0x5349444448414D204C455454455220544120),
  (0x1159E, 0x5349444448414D204C45545445522054484120),
  (0x1159F, 0x5349444448414D204C455454455220444120),
  (0x115A0, 0x5349444448414D204C45545445522044484120),
  (0x115A1, 0x5349444448414D204C4554544552204E4120),
  (0x115A2, 0x5349444448414D204C455454455220504120),
  (0x115A3, 0x5349444448414D204C45545445522050484120),
  (0x115A4, 0x5349444448414D204C455454455220424120),
  (0x115A5, 0x5349444448414D204C45545445522042484120),
  (0x115A6, 0x5349444448414D204C4554544552204D4120),
  (0x115A7, 0x5349444448414D204C455454455220594120),
  (0x115A8, 0x5349444448414D204C455454455220524120),
  (0x115A9, 0x5349444448414D204C4554544552204C4120),
  (0x115AA, 0x5349444448414D204C455454455220564120),
  (0x115AB, 0x5349444448414D204C45545445522053484120),
  (0x115AC, 0x5349444448414D204C45545445522053534120),
  (0x115AD, 0x5349444448414D204C455454455220534120),
  (0x115AE, 0x5349444448414D204C455454455220484120),
  (0x115AF, 0x5349444448414D20564F57454C205349474E20414120),
  (0x115B0, 0x5349444448414D20564F57454C205349474E204920),
  (0x115B1, 0x5349444448414D20564F57454C205349474E20494920),
  (0x115B2, 0x5349444448414D20564F57454C205349474E205520),
  (0x115B3, 0x5349444448414D20564F57454C205349474E20555520),
  (0x115B4, 0x5349444448414D20564F57454C205349474E20564F43414C4943205220),
  (0x115B5, 0x5349444448414D20564F57454C205349474E20564F43414C494320525220),
  (0x115B8, 0x5349444448414D20564F57454C205349474E204520),
  (0x115B9, 0x5349444448414D20564F57454C205349474E20414920),
  (0x115BA, 0x5349444448414D20564F57454C205349474E204F20),
  (0x115BB, 0x5349444448414D20564F57454C205349474E20415520),
  (0x115BC, 0x5349444448414D205349474E2043414E44524142494E445520),
  (0x115BD, 0x5349444448414D205349474E20414E55535641524120),
  (0x115BE, 0x5349444448414D205349474E205649534152474120),
  (0x115BF, 0x5349444448414D205349474E20564952414D4120),
  (0x115C0, 0x5349444448414D205349474E204E554B544120),
  (0x115C1, 0x5349444448414D205349474E205349444448414D20),
  (0x115C2, 0x5349444448414D2044414E444120),
  (0x115C3, 0x5349444448414D20444F55424C452044414E444120),
  (0x115C4, 0x5349444448414D20534550415241544F5220444F5420),
  (0x115C5, 0x5349444448414D20534550415241544F522042415220),
  (0x115C6, 0x5349444448414D2052455045544954494F4E204D41524B2D3120),
  (0x115C7, 0x5349444448414D2052455045544954494F4E204D41524B2D3220),
  (0x115C8, 0x5349444448414D2052455045544954494F4E204D41524B2D3320),
  (0x115C9, 0x5349444448414D20454E44204F462054455854204D41524B20),
  (0x115CA, 0x5349444448414D2053454354494F4E204D41524B20574954482054524944454E5420414E4420552D534841504544204F524E414D454E545320)]
def names_308 : List (Nat × Nat) := [
  (0x115CB, 0x5349444448414D2053454354494F4E204D41524B20574954482054524944454E5420414E4420444F54544544204352455343454E545320),
  (0x115CC, 0x5349444448414D2053454354494F4E204D41524B2057495448205241595320414E4420444F54544544204352455343454E545320),
  (0x115CD, 0x5349444448414D2053454354494F4E204D41524B2057495448205241595320414E4420444F5454454420444F55424C45204352455343454E545320),
  (0x115CE, 0x5349444448414D2053454354494F4E204D41524B2057495448205241595320414E4420444F5454454420545249504C45204352455343454E545320),
  (0x115CF, 0x5349444448414D2053454354494F4E204D41524B20444F55424C452052494E4720),
  (0x115D0, 0x5349444448414D2053454354494F4E204D41524B20444F55424C452052494E472057495448205241595320),
  (0x115D1, 0x5349444448414D2053454354494F4E204D41524B205749544820444F55424C45204352455343454E545320),
  (0x115D2, 0x5349444448414D2053454354494F4E204D41524B205749544820545249504C45204352455343454E545320),
  (0x115D3, 0x5349444448414D2053454354494F4E204D41524B205749544820515541445255504C45204352455343454E545320),
  (0x115D4, 0x5349444448414D2053454354494F4E204D41524B2057495448205345505455504C45204352455343454E545320),
  (0x115D5, 0x5349444448414D2053454354494F4E204D41524B205749544820434952434C455320414E44205241595320),
  (0x115D6, 0x5349444448414D2053454354494F4E204D41524B205749544820434952434C455320414E442054574F20454E434C4F535552455320),
  (0x115D7, 0x5349444448414D2053454354494F4E204D41524B205749544820434952434C455320414E4420464F555220454E434C4F535552455320),
  (0x115D8, 0x5349444448414D204C45545445522054485245452D434952434C4520414C5445524E415445204920),
  (0x115D9, 0x5349444448414D204C45545445522054574F2D434952434C4520414C5445524E415445204920),
  (0x115DA, 0x5349444448414D204C45545445522054574F2D434952434C4520414C5445524E41544520494920),
  (0x115DB, 0x5349444448414D204C455454455220414C5445524E415445205520),
  (0x115DC, 0x5349444448414D20564F57454C205349474E20414C5445524E415445205520),
  (0x115DD, 0x5349444448414D20564F57454C205349474E20414C5445524E41544520555520),
  (0x11600, 0x4D4F4449204C4554544552204120),
  (0x11601, 0x4D4F4449204C455454455220414120),
  (0x11602, 0x4D4F4449204C4554544552204920),
  (0x11603, 0x4D4F4449204C455454455220494920),
  (0x11604, 0x4D4F4449204C4554544552205520),
  (0x11605, 0x4D4F4449204C455454455220555520),
  (0x11606, 0x4D4F4449204C455454455220564F43414C4943205220),
  (0x11607, 0x4D4F4449204C455454455220564F43414C494320525220),
  (0x11608, 0x4D4F4449204C455454455220564F43414C4943204C20),
  (0x11609, 0x4D4F4449204C455454455220564F43414C4943204C4C20),
  (0x1160A, 0x4D4F4449204C4554544552204520),
  (0x1160B, 0x4D4F4449204C455454455220414920),
  (0x1160C, 0x4D4F4449204C4554544552204F20),
  (0x1160D, 0x4D4F4449204C455454455220415520),
  (0x1160E, 0x4D4F4449204C4554544552204B4120),
  (0x1160F, 0x4D4F4449204C4554544552204B484120),
  (0x11610, 0x4D4F4449204C455454455220474120),
  (0x11611, 0x4D4F4449204C45545445522047484120),
  (0x11612, 0x4D4F4449204C4554544552204E474120),
  (0x11613, 0x4D4F4449204C455454455220434120),
  (0x11614, 0x4D4F4449204C45545445522043484120),
  (0x11615, 0x4D4F4449204C4554544552204A4120),
  (0x11616, 0x4D4F4449204C4554544552204A484120),
  (0x11617, 0x4D4F4449204C4554544552204E594120),
  (0x11618, 0x4D4F4449204C45545445522054544120),
  (0x11619, 0x4D4F4449204C4554544552205454484120),
  (0x1161A, 0x4D4F4449204C45545445522044444120),
  (0x1161B, 0x4D4F4449204C4554544552204444484120),
  (0x1161C, 0x4D4F4449204C4554544552204E4E4120),
  (0x1161D, 0x4D4F4449204C455454455220544120),
  (0x1161E, 0x4D4F4449204C45545445522054484120),
  (0x1161F, 0x4D4F4449204C455454455220444120),
  (0x11620, 0x4D4F4449204C45545445522044484120),
  (0x11621, 0x4D4F4449204C4554544552204E4120),
  (0x11622, 0x4D4F4449204C455454455220504120),
  (0x11623, 0x4D4F4449204C45545445522050484120),
  (0x11624, 0x4D4F4449204C455454455220424120),
  (0x11625, 0x4D4F4449204C45545445522042484120),
  (0x11626, 0x4D4F4449204C4554544552204D4120),
  (0x11627, 0x4D4F4449204C455454455220594120),
  (0x11628, 0x4D4F4449204C455454455220524120),
  (0x11629, 0x4D4F4449204C4554544552204C4120),
  (0x1162A, 0x4D4F4449204C455454455220564120),
  (0x1162B, 0x4D4F4449204C45545445522053484120),
  (0x1162C, 0x4D4F4449204C45545445522053534120)]
def names_309 : List (Nat × Nat) := [
  (0x1162D, 0x4D4F4449204C455454455220534120),
  (0x1162E, 0x4D4F4449204C455454455220484120),
  (0x1162F, 0x4D4F4449204C4554544552204C4C4120),
  (0x11630, 0x4D4F444920564F57454C205349474E20414120),
  (0x11631, 0x4D4F444920564F57454C205349474E204920),
  (0x11632, 0x4D4F444920564F57454C205349474E20494920),
  (0x11633, 0x4D4F444920564F57454C205349474E205520),
  (0x11634, 0x4D4F444920564F57454C205349474E20555520),
  (0x11635, 0x4D4F444920564F57454C205349474E20564F43414C4943205220),
  (0x11636, 0x4D4F444920564F57454C205349474E20564F43414C494320525220),
  (0x11637, 0x4D4F444920564F57454C205349474E20564F43414C4943204C20),
  (0x11638, 0x4D4F444920564F57454C205349474E20564F43414C4943204C4C20),
  (0x11639, 0x4D4F444920564F57454C205349474E204520),
  (0x1163A, 0x4D4F444920564F57454C205349474E20414920),
  (0x1163B, 0x4D4F444920564F57454C205349474E204F20),
  (0x1163C, 0x4D4F444920564F57454C205349474E20415520),
  (0x1163D, 0x4D4F4449205349474E20414E55535641524120),
  (0x1163E, 0x4D4F4449205349474E205649534152474120),
  (0x1163F, 0x4D4F4449205349474E20564952414D4120),
  (0x11640, 0x4D4F4449205349474E20415244484143414E44524120),
  (0x11641, 0x4D4F44492044414E444120),
  (0x11642, 0x4D4F444920444F55424C452044414E444120),
  (0x11643, 0x4D4F444920414242524556494154494F4E205349474E20),
  (0x11644, 0x4D4F4449205349474E204855564120),
  (0x11650, 0x4D4F4449204449474954205A45524F20),
  (0x11651, 0x4D4F4449204449474954204F4E4520),
  (0x11652, 0x4D4F44492044494749542054574F20),
  (0x11653, 0x4D4F444920444947495420544852454520),
  (0x11654, 0x4D4F444920444947495420464F555220),
  (0x11655, 0x4D4F4449204449474954204649564520),
  (0x11656, 0x4D4F44492044494749542053495820),
  (0x11657, 0x4D4F444920444947495420534556454E20),
  (0x11658, 0x4D4F444920444947495420454947485420),
  (0x11659, 0x4D4F4449204449474954204E494E4520),
  (0x11660, 0x4D4F4E474F4C49414E2042495247412057495448204F524E414D454E5420),
  (0x11661, 0x4D4F4E474F4C49414E20524F544154454420424952474120),
  (0x11662, 0x4D4F4E474F4C49414E20444F55424C452042495247412057495448204F524E414D454E5420),
  (0x11663, 0x4D4F4E474F4C49414E20545249504C452042495247412057495448204F524E414D454E5420),
  (0x11664, 0x4D4F4E474F4C49414E204249524741205749544820444F55424C45204F524E414D454E5420),
  (0x11665, 0x4D4F4E474F4C49414E20524F54415445442042495247412057495448204F524E414D454E5420),
  (0x11666, 0x4D4F4E474F4C49414E20524F5441544544204249524741205749544820444F55424C45204F524E414D454E5420),
  (0x11667, 0x4D4F4E474F4C49414E20494E56455254454420424952474120),
  (0x11668, 0x4D4F4E474F4C49414E20494E564552544544204249524741205749544820444F55424C45204F524E414D454E5420),
  (0x11669, 0x4D4F4E474F4C49414E20535749524C20424952474120),
  (0x1166A, 0x4D4F4E474F4C49414E20535749524C2042495247412057495448204F524E414D454E5420),
  (0x1166B, 0x4D4F4E474F4C49414E20535749524C204249524741205749544820444F55424C45204F524E414D454E5420),
  (0x1166C, 0x4D4F4E474F4C49414E205455524E454420535749524C204249524741205749544820444F55424C45204F524E414D454E5420),
  (0x11680, 0x54414B5249204C4554544552204120),
  (0x11681, 0x54414B5249204C455454455220414120),
  (0x11682, 0x54414B5249204C4554544552204920),
  (0x11683, 0x54414B5249204C455454455220494920),
  (0x11684, 0x54414B5249204C4554544552205520),
  (0x11685, 0x54414B5249204C455454455220555520),
  (0x11686, 0x54414B5249204C4554544552204520),
  (0x11687, 0x54414B5249204C455454455220414920),
  (0x11688, 0x54414B5249204C4554544552204F20),
  (0x11689, 0x54414B5249204C455454455220415520),
  (0x1168A, 0x54414B5249204C4554544552204B4120),
  (0x1168B, 0x54414B5249204C4554544552204B484120),
  (0x1168C, 0x54414B5249204C455454455220474120),
  (0x1168D, 0x54414B5249204C45545445522047484120),
  (0x1168E, 0x54414B5249204C4554544552204E474120),
  (0x1168F, 0x54414B5249204C455454455220434120),
  (0x11690, 0x54414B5249204C45545445522043484120)]
def names_310 : List (Nat × Nat) := [
  (0x11691, 0x54414B5249204C4554544552204A4120),
  (0x11692, 0x54414B5249204C4554544552204A484120),
  (0x11693, 0x54414B5249204C4554544552204E594120),
  (0x11694, 0x54414B5249204C45545445522054544120),
  (0x11695, 0x54414B5249204C4554544552205454484120),
  (0x11696, 0x54414B5249204C45545445522044444120),
  (0x11697, 0x54414B5249204C4554544552204444484120),
  (0x11698, 0x54414B5249204C4554544552204E4E4120),
  (0x11699, 0x54414B5249204C455454455220544120),
  (0x1169A, 0x54414B5249204C45545445522054484120),
  (0x1169B, 0x54414B5249204C455454455220444120),
  (0x1169C, 0x54414B5249204C45545445522044484120),
  (0x1169D, 0x54414B5249204C4554544552204E4120),
  (0x1169E, 0x54414B5249204C455454455220504120),
  (0x1169F, 0x54414B5249204C45545445522050484120),
  (0x116A0, 0x54414B5249204C455454455220424120),
  (0x116A1, 0x54414B5249204C45545445522042484120),
  (0x116A2, 0x54414B5249204C4554544552204D4120),
  (0x116A3, 0x54414B5249204C455454455220594120),
  (0x116A4, 0x54414B5249204C455454455220524120),
  (0x116A5, 0x54414B5249204C4554544552204C4120),
  (0x116A6, 0x54414B5249204C455454455220564120),
  (0x116A7, 0x54414B5249204C45545445522053484120),
  (0x116A8, 0x54414B5249204C455454455220534120),
  (0x116A9, 0x54414B5249204C455454455220484120),
  (0x116AA, 0x54414B5249204C45545445522052524120),
  (0x116AB, 0x54414B5249205349474E20414E55535641524120),
  (0x116AC, 0x54414B5249205349474E205649534152474120),
  (0x116AD, 0x54414B524920564F57454C205349474E20414120),
  (0x116AE, 0x54414B524920564F57454C205349474E204920),
  (0x116AF, 0x54414B524920564F57454C205349474E20494920),
  (0x116B0, 0x54414B524920564F57454C205349474E205520),
  (0x116B1, 0x54414B524920564F57454C205349474E20555520),
  (0x116B2, 0x54414B524920564F57454C205349474E204520),
  (0x116B3, 0x54414B524920564F57454C205349474E20414920),
  (0x116B4, 0x54414B524920564F57454C205349474E204F20),
  (0x116B5, 0x54414B524920564F57454C205349474E20415520),
  (0x116B6, 0x54414B5249205349474E20564952414D4120),
  (0x116B7, 0x54414B5249205349474E204E554B544120),
  (0x116C0, 0x54414B5249204449474954205A45524F20),
  (0x116C1, 0x54414B5249204449474954204F4E4520),
  (0x116C2, 0x54414B52492044494749542054574F20),
  (0x116C3, 0x54414B524920444947495420544852454520),
  (0x116C4, 0x54414B524920444947495420464F555220),
  (0x116C5, 0x54414B5249204449474954204649564520),
  (0x116C6, 0x54414B52492044494749542053495820),
  (0x116C7, 0x54414B524920444947495420534556454E20),
  (0x116C8, 0x54414B524920444947495420454947485420),
  (0x116C9, 0x54414B5249204449474954204E494E4520),
  (0x11700, 0x41484F4D204C4554544552204B4120),
  (0x11701, 0x41484F4D204C4554544552204B484120),
  (0x11702, 0x41484F4D204C4554544552204E474120),
  (0x11703, 0x41484F4D204C4554544552204E4120),
  (0x11704, 0x41484F4D204C455454455220544120),
  (0x11705, 0x41484F4D204C455454455220414C5445524E41544520544120),
  (0x11706, 0x41484F4D204C455454455220504120),
  (0x11707, 0x41484F4D204C45545445522050484120),
  (0x11708, 0x41484F4D204C455454455220424120),
  (0x11709, 0x41484F4D204C4554544552204D4120),
  (0x1170A, 0x41484F4D204C4554544552204A4120),
  (0x1170B, 0x41484F4D204C45545445522043484120),
  (0x1170C, 0x41484F4D204C45545445522054484120),
  (0x1170D, 0x41484F4D204C455454455220524120),
  (0x1170E, 0x41484F4D204C4554544552204C4120)]
def names_311 : List (Nat × Nat) := [
  (0x1170F, 0x41484F4D204C455454455220534120),
  (0x11710, 0x41484F4D204C4554544552204E594120),
  (0x11711, 0x41484F4D204C455454455220484120),
  (0x11712, 0x41484F4D204C4554544552204120),
  (0x11713, 0x41484F4D204C455454455220444120),
  (0x11714, 0x41484F4D204C45545445522044484120),
  (0x11715, 0x41484F4D204C455454455220474120),
  (0x11716, 0x41484F4D204C455454455220414C5445524E41544520474120),
  (0x11717, 0x41484F4D204C45545445522047484120),
  (0x11718, 0x41484F4D204C45545445522042484120),
  (0x11719, 0x41484F4D204C4554544552204A484120),
  (0x1171D, 0x41484F4D20434F4E534F4E414E54205349474E204D454449414C204C4120),
  (0x1171E, 0x41484F4D20434F4E534F4E414E54205349474E204D454449414C20524120),
  (0x1171F, 0x41484F4D20434F4E534F4E414E54205349474E204D454449414C204C49474154494E4720524120),
  (0x11720, 0x41484F4D20564F57454C205349474E204120),
  (0x11721, 0x41484F4D20564F57454C205349474E20414120),
  (0x11722, 0x41484F4D20564F57454C205349474E204920),
  (0x11723, 0x41484F4D20564F57454C205349474E20494920),
  (0x11724, 0x41484F4D20564F57454C205349474E205520),
  (0x11725, 0x41484F4D20564F57454C205349474E20555520),
  (0x11726, 0x41484F4D20564F57454C205349474E204520),
  (0x11727, 0x41484F4D20564F57454C205349474E20415720),
  (0x11728, 0x41484F4D20564F57454C205349474E204F20),
  (0x11729, 0x41484F4D20564F57454C205349474E20414920),
  (0x1172A, 0x41484F4D20564F57454C205349474E20414D20),
  (0x1172B, 0x41484F4D205349474E204B494C4C455220),
  (0x11730, 0x41484F4D204449474954205A45524F20),
  (0x11731, 0x41484F4D204449474954204F4E4520),
  (0x11732, 0x41484F4D2044494749542054574F20),
  (0x11733, 0x41484F4D20444947495420544852454520),
  (0x11734, 0x41484F4D20444947495420464F555220),
  (0x11735, 0x41484F4D204449474954204649564520),
  (0x11736, 0x41484F4D2044494749542053495820),
  (0x11737, 0x41484F4D20444947495420534556454E20),
  (0x11738, 0x41484F4D20444947495420454947485420),
  (0x11739, 0x41484F4D204449474954204E494E4520),
  (0x1173A, 0x41484F4D204E554D4245522054454E20),
  (0x1173B, 0x41484F4D204E554D424552205457454E545920),
  (0x1173C, 0x41484F4D205349474E20534D414C4C2053454354494F4E20),
  (0x1173D, 0x41484F4D205349474E2053454354494F4E20),
  (0x1173E, 0x41484F4D205349474E2052554C414920),
  (0x1173F, 0x41484F4D2053594D424F4C20564920),
  (0x118A0, 0x574152414E472043495449204341504954414C204C4554544552204E47414120),
  (0x118A1, 0x574152414E472043495449204341504954414C204C4554544552204120),
  (0x118A2, 0x574152414E472043495449204341504954414C204C455454455220574920),
  (0x118A3, 0x574152414E472043495449204341504954414C204C455454455220595520),
  (0x118A4, 0x574152414E472043495449204341504954414C204C455454455220594120),
  (0x118A5, 0x574152414E472043495449204341504954414C204C455454455220594F20),
  (0x118A6, 0x574152414E472043495449204341504954414C204C455454455220494920),
  (0x118A7, 0x574152414E472043495449204341504954414C204C455454455220555520),
  (0x118A8, 0x574152414E472043495449204341504954414C204C4554544552204520),
  (0x118A9, 0x574152414E472043495449204341504954414C204C4554544552204F20),
  (0x118AA, 0x574152414E472043495449204341504954414C204C455454455220414E4720),
  (0x118AB, 0x574152414E472043495449204341504954414C204C455454455220474120),
  (0x118AC, 0x574152414E472043495449204341504954414C204C4554544552204B4F20),
  (0x118AD, 0x574152414E472043495449204341504954414C204C455454455220454E5920),
  (0x118AE, 0x574152414E472043495449204341504954414C204C45545445522059554A20),
  (0x118AF, 0x574152414E472043495449204341504954414C204C455454455220554320),
  (0x118B0, 0x574152414E472043495449204341504954414C204C455454455220454E4E20),
  (0x118B1, 0x574152414E472043495449204341504954414C204C4554544552204F444420),
  (0x118B2, 0x574152414E472043495449204341504954414C204C45545445522054544520),
  (0x118B3, 0x574152414E472043495449204341504954414C204C4554544552204E554E4720),
  (0x118B4, 0x574152414E472043495449204341504954414C204C455454455220444120),
  (0x118B5, 0x574152414E472043495449204341504954414C204C455454455220415420)]
def names_312 : List (Nat × Nat) := [
  (0x118B6, 0x574152414E472043495449204341504954414C204C455454455220414D20),
  (0x118B7, 0x574152414E472043495449204341504954414C204C455454455220425520),
  (0x118B8, 0x574152414E472043495449204341504954414C204C455454455220505520),
  (0x118B9, 0x574152414E472043495449204341504954414C204C4554544552204849594F20),
  (0x118BA, 0x574152414E472043495449204341504954414C204C455454455220484F4C4F20),
  (0x118BB, 0x574152414E472043495449204341504954414C204C455454455220484F525220),
  (0x118BC, 0x574152414E472043495449204341504954414C204C45545445522048415220),
  (0x118BD, 0x574152414E472043495449204341504954414C204C4554544552205353555520),
  (0x118BE, 0x574152414E472043495449204341504954414C204C45545445522053494920),
  (0x118BF, 0x574152414E472043495449204341504954414C204C4554544552205649594F20),
  (0x118C0, 0x574152414E47204349544920534D414C4C204C4554544552204E47414120),
  (0x118C1, 0x574152414E47204349544920534D414C4C204C4554544552204120),
  (0x118C2, 0x574152414E47204349544920534D414C4C204C455454455220574920),
  (0x118C3, 0x574152414E47204349544920534D414C4C204C455454455220595520),
  (0x118C4, 0x574152414E47204349544920534D414C4C204C455454455220594120),
  (0x118C5, 0x574152414E47204349544920534D414C4C204C455454455220594F20),
  (0x118C6, 0x574152414E47204349544920534D414C4C204C455454455220494920),
  (0x118C7, 0x574152414E47204349544920534D414C4C204C455454455220555520),
  (0x118C8, 0x574152414E47204349544920534D414C4C204C4554544552204520),
  (0x118C9, 0x574152414E47204349544920534D414C4C204C4554544552204F20),
  (0x118CA, 0x574152414E47204349544920534D414C4C204C455454455220414E4720),
  (0x118CB, 0x574152414E47204349544920534D414C4C204C455454455220474120),
  (0x118CC, 0x574152414E47204349544920534D414C4C204C4554544552204B4F20),
  (0x118CD, 0x574152414E47204349544920534D414C4C204C455454455220454E5920),
  (0x118CE, 0x574152414E47204349544920534D414C4C204C45545445522059554A20),
  (0x118CF, 0x574152414E47204349544920534D414C4C204C455454455220554320),
  (0x118D0, 0x574152414E47204349544920534D414C4C204C455454455220454E4E20),
  (0x118D1, 0x574152414E47204349544920534D414C4C204C4554544552204F444420),
  (0x118D2, 0x574152414E47204349544920534D414C4C204C45545445522054544520),
  (0x118D3, 0x574152414E47204349544920534D414C4C204C4554544552204E554E4720),
  (0x118D4, 0x574152414E47204349544920534D414C4C204C455454455220444120),
  (0x118D5, 0x574152414E47204349544920534D414C4C204C455454455220415420),
  (0x118D6, 0x574152414E47204349544920534D414C4C204C455454455220414D20),
  (0x118D7, 0x574152414E47204349544920534D414C4C204C455454455220425520),
  (0x118D8, 0x574152414E47204349544920534D414C4C204C455454455220505520),
  (0x118D9, 0x574152414E47204349544920534D414C4C204C4554544552204849594F20),
  (0x118DA, 0x574152414E47204349544920534D414C4C204C455454455220484F4C4F20),
  (0x118DB, 0x574152414E47204349544920534D414C4C204C455454455220484F525220),
  (0x118DC, 0x574152414E47204349544920534D414C4C204C45545445522048415220),
  (0x118DD, 0x574152414E47204349544920534D414C4C204C4554544552205353555520),
  (0x118DE, 0x574152414E47204349544920534D414C4C204C45545445522053494920),
  (0x118DF, 0x574152414E47204349544920534D414C4C204C4554544552205649594F20),
  (0x118E0, 0x574152414E472043495449204449474954205A45524F20),
  (0x118E1, 0x574152414E472043495449204449474954204F4E4520),
  (0x118E2, 0x574152414E4720434954492044494749542054574F20),
  (0x118E3, 0x574152414E47204349544920444947495420544852454520),
  (0x118E4, 0x574152414E47204349544920444947495420464F555220),
  (0x118E5, 0x574152414E472043495449204449474954204649564520),
  (0x118E6, 0x574152414E4720434954492044494749542053495820),
  (0x118E7, 0x574152414E47204349544920444947495420534556454E20),
  (0x118E8, 0x574152414E47204349544920444947495420454947485420),
  (0x118E9, 0x574152414E472043495449204449474954204E494E4520),
  (0x118EA, 0x574152414E472043495449204E554D4245522054454E20),
  (0x118EB, 0x574152414E472043495449204E554D424552205457454E545920),
  (0x118EC, 0x574152414E472043495449204E554D4245522054484952545920),
  (0x118ED, 0x574152414E472043495449204E554D42455220464F52545920),
  (0x118EE, 0x574152414E472043495449204E554D42455220464946545920),
  (0x118EF, 0x574152414E472043495449204E554D42455220534958545920),
  (0x118F0, 0x574152414E472043495449204E554D42455220534556454E545920),
  (0x118F1, 0x574152414E472043495449204E554D4245522045494748545920),
  (0x118F2, 0x574152414E472043495449204E554D424552204E494E45545920),
  (0x118FF, 0x574152414E472043495449204F4D20),
  (0x11A00, 0x5A414E4142415A415220535155415245204C4554544552204120),
  (0x11A01, 0x5A414E4142415A41522053515541524520564F57454C205349474E204920)]
def names_313 : List (Nat × Nat) := [
  (0x11A02, 0x5A414E4142415A41522053515541524520564F57454C205349474E20554520),
  (0x11A03, 0x5A414E4142415A41522053515541524520564F57454C205349474E205520),
  (0x11A04, 0x5A414E4142415A41522053515541524520564F57454C205349474E204520),
  (0x11A05, 0x5A414E4142415A41522053515541524520564F57454C205349474E204F4520),
  (0x11A06, 0x5A414E4142415A41522053515541524520564F57454C205349474E204F20),
  (0x11A07, 0x5A414E4142415A41522053515541524520564F57454C205349474E20414920),
  (0x11A08, 0x5A414E4142415A41522053515541524520564F57454C205349474E20415520),
  (0x11A09, 0x5A414E4142415A41522053515541524520564F57454C205349474E205245564552534544204920),
  (0x11A0A, 0x5A414E4142415A41522053515541524520564F57454C204C454E475448204D41524B20),
  (0x11A0B, 0x5A414E4142415A415220535155415245204C4554544552204B4120),
  (0x11A0C, 0x5A414E4142415A415220535155415245204C4554544552204B484120),
  (0x11A0D, 0x5A414E4142415A415220535155415245204C455454455220474120),
  (0x11A0E, 0x5A414E4142415A415220535155415245204C45545445522047484120),
  (0x11A0F, 0x5A414E4142415A415220535155415245204C4554544552204E474120),
  (0x11A10, 0x5A414E4142415A415220535155415245204C455454455220434120),
  (0x11A11, 0x5A414E4142415A415220535155415245204C45545445522043484120),
  (0x11A12, 0x5A414E4142415A415220535155415245204C4554544552204A4120),
  (0x11A13, 0x5A414E4142415A415220535155415245204C4554544552204E594120),
  (0x11A14, 0x5A414E4142415A415220535155415245204C45545445522054544120),
  (0x11A15, 0x5A414E4142415A415220535155415245204C4554544552205454484120),
  (0x11A16, 0x5A414E4142415A415220535155415245204C45545445522044444120),
  (0x11A17, 0x5A414E4142415A415220535155415245204C4554544552204444484120),
  (0x11A18, 0x5A414E4142415A415220535155415245204C4554544552204E4E4120),
  (0x11A19, 0x5A414E4142415A415220535155415245204C455454455220544120),
  (0x11A1A, 0x5A414E4142415A415220535155415245204C45545445522054484120),
  (0x11A1B, 0x5A414E4142415A415220535155415245204C455454455220444120),
  (0x11A1C, 0x5A414E4142415A415220535155415245204C45545445522044484120),
  (0x11A1D, 0x5A414E4142415A415220535155415245204C4554544552204E4120),
  (0x11A1E, 0x5A414E4142415A415220535155415245204C455454455220504120),
  (0x11A1F, 0x5A414E4142415A415220535155415245204C45545445522050484120),
  (0x11A20, 0x5A414E4142415A415220535155415245204C455454455220424120),
  (0x11A21, 0x5A414E4142415A415220535155415245204C45545445522042484120),
  (0x11A22, 0x5A414E4142415A415220535155415245204C4554544552204D4120),
  (0x11A23, 0x5A414E4142415A415220535155415245204C45545445522054534120),
  (0x11A24, 0x5A414E4142415A415220535155415245204C4554544552205453484120),
  (0x11A25, 0x5A414E4142415A415220535155415245204C455454455220445A4120),
  (0x11A26, 0x5A414E4142415A415220535155415245204C455454455220445A484120),
  (0x11A27, 0x5A414E4142415A415220535155415245204C4554544552205A484120),
  (0x11A28, 0x5A414E4142415A415220535155415245204C4554544552205A4120),
  (0x11A29, 0x5A414E4142415A415220535155415245204C4554544552202D4120),
  (0x11A2A, 0x5A414E4142415A415220535155415245204C455454455220594120),
  (0x11A2B, 0x5A414E4142415A415220535155415245204C455454455220524120),
  (0x11A2C, 0x5A414E4142415A415220535155415245204C4554544552204C4120),
  (0x11A2D, 0x5A414E4142415A415220535155415245204C455454455220564120),
  (0x11A2E, 0x5A414E4142415A415220535155415245204C45545445522053484120),
  (0x11A2F, 0x5A414E4142415A415220535155415245204C45545445522053534120),
  (0x11A30, 0x5A414E4142415A415220535155415245204C455454455220534120),
  (0x11A31, 0x5A414E4142415A415220535155415245204C455454455220484120),
  (0x11A32, 0x5A414E4142415A415220535155415245204C4554544552204B53534120),
  (0x11A33, 0x5A414E4142415A4152205351554152452046494E414C20434F4E534F4E414E54204D41524B20),
  (0x11A34, 0x5A414E4142415A415220535155415245205349474E20564952414D4120),
  (0x11A35, 0x5A414E4142415A415220535155415245205349474E2043414E44524142494E445520),
  (0x11A36, 0x5A414E4142415A415220535155415245205349474E2043414E44524142494E44552057495448204F524E414D454E5420),
  (0x11A37, 0x5A414E4142415A415220535155415245205349474E2043414E4452412057495448204F524E414D454E5420),
  (0x11A38, 0x5A414E4142415A415220535155415245205349474E20414E55535641524120),
  (0x11A39, 0x5A414E4142415A415220535155415245205349474E205649534152474120),
  (0x11A3A, 0x5A414E4142415A41522053515541524520434C55535445522D494E495449414C204C455454455220524120),
  (0x11A3B, 0x5A414E4142415A41522053515541524520434C55535445522D46494E414C204C455454455220594120),
  (0x11A3C, 0x5A414E4142415A41522053515541524520434C55535445522D46494E414C204C455454455220524120),
  (0x11A3D, 0x5A414E4142415A41522053515541524520434C55535445522D46494E414C204C4554544552204C4120),
  (0x11A3E, 0x5A414E4142415A41522053515541524520434C55535445522D46494E414C204C455454455220564120),
  (0x11A3F, 0x5A414E4142415A41522053515541524520494E495449414C2048454144204D41524B20),
  (0x11A40, 0x5A414E4142415A41522053515541524520434C4F53494E472048454144204D41524B20),
  (0x11A41, 0x5A414E4142415A415220535155415245204D41524B20545348454720)]
def names_314 : List (Nat × Nat) := [
  (0x11A42, 0x5A414E4142415A415220535155415245204D41524B205348414420),
  (0x11A43, 0x5A414E4142415A415220535155415245204D41524B20444F55424C45205348414420),
  (0x11A44, 0x5A414E4142415A415220535155415245204D41524B204C4F4E4720545348454720),
  (0x11A45, 0x5A414E4142415A41522053515541524520494E495449414C20444F55424C452D4C494E45442048454144204D41524B20),
  (0x11A46, 0x5A414E4142415A41522053515541524520434C4F53494E4720444F55424C452D4C494E45442048454144204D41524B20),
  (0x11A47, 0x5A414E4142415A415220535155415245205355424A4F494E455220),
  (0x11A50, 0x534F594F4D424F204C4554544552204120),
  (0x11A51, 0x534F594F4D424F20564F57454C205349474E204920),
  (0x11A52, 0x534F594F4D424F20564F57454C205349474E20554520),
  (0x11A53, 0x534F594F4D424F20564F57454C205349474E205520),
  (0x11A54, 0x534F594F4D424F20564F57454C205349474E204520),
  (0x11A55, 0x534F594F4D424F20564F57454C205349474E204F20),
  (0x11A56, 0x534F594F4D424F20564F57454C205349474E204F4520),
  (0x11A57, 0x534F594F4D424F20564F57454C205349474E20414920),
  (0x11A58, 0x534F594F4D424F20564F57454C205349474E20415520),
  (0x11A59, 0x534F594F4D424F20564F57454C205349474E20564F43414C4943205220),
  (0x11A5A, 0x534F594F4D424F20564F57454C205349474E20564F43414C4943204C20),
  (0x11A5B, 0x534F594F4D424F20564F57454C204C454E475448204D41524B20),
  (0x11A5C, 0x534F594F4D424F204C4554544552204B4120),
  (0x11A5D, 0x534F594F4D424F204C4554544552204B484120),
  (0x11A5E, 0x534F594F4D424F204C455454455220474120),
  (0x11A5F, 0x534F594F4D424F204C45545445522047484120),
  (0x11A60, 0x534F594F4D424F204C4554544552204E474120),
  (0x11A61, 0x534F594F4D424F204C455454455220434120),
  (0x11A62, 0x534F594F4D424F204C45545445522043484120),
  (0x11A63, 0x534F594F4D424F204C4554544552204A4120),
  (0x11A64, 0x534F594F4D424F204C4554544552204A484120),
  (0x11A65, 0x534F594F4D424F204C4554544552204E594120),
  (0x11A66, 0x534F594F4D424F204C45545445522054544120),
  (0x11A67, 0x534F594F4D424F204C4554544552205454484120),
  (0x11A68, 0x534F594F4D424F204C45545445522044444120),
  (0x11A69, 0x534F594F4D424F204C4554544552204444484120),
  (0x11A6A, 0x534F594F4D424F204C4554544552204E4E4120),
  (0x11A6B, 0x534F594F4D424F204C455454455220544120),
  (0x11A6C, 0x534F594F4D424F204C45545445522054484120),
  (0x11A6D, 0x534F594F4D424F204C455454455220444120),
  (0x11A6E, 0x534F594F4D424F204C45545445522044484120),
  (0x11A6F, 0x534F594F4D424F204C4554544552204E4120),
  (0x11A70, 0x534F594F4D424F204C455454455220504120),
  (0x11A71, 0x534F594F4D424F204C45545445522050484120),
  (0x11A72, 0x534F594F4D424F204C455454455220424120),
  (0x11A73, 0x534F594F4D424F204C45545445522042484120),
  (0x11A74, 0x534F594F4D424F204C4554544552204D4120),
  (0x11A75, 0x534F594F4D424F204C45545445522054534120),
  (0x11A76, 0x534F594F4D424F204C4554544552205453484120),
  (0x11A77, 0x534F594F4D424F204C455454455220445A4120),
  (0x11A78, 0x534F594F4D424F204C4554544552205A484120),
  (0x11A79, 0x534F594F4D424F204C4554544552205A4120),
  (0x11A7A, 0x534F594F4D424F204C4554544552202D4120),
  (0x11A7B, 0x534F594F4D424F204C455454455220594120),
  (0x11A7C, 0x534F594F4D424F204C455454455220524120),
  (0x11A7D, 0x534F594F4D424F204C4554544552204C4120),
  (0x11A7E, 0x534F594F4D424F204C455454455220564120),
  (0x11A7F, 0x534F594F4D424F204C45545445522053484120),
  (0x11A80, 0x534F594F4D424F204C45545445522053534120),
  (0x11A81, 0x534F594F4D424F204C455454455220534120),
  (0x11A82, 0x534F594F4D424F204C455454455220484120),
  (0x11A83, 0x534F594F4D424F204C4554544552204B53534120),
  (0x11A86, 0x534F594F4D424F20434C55535445522D494E495449414C204C455454455220524120),
  (0x11A87, 0x534F594F4D424F20434C55535445522D494E495449414C204C4554544552204C4120),
  (0x11A88, 0x534F594F4D424F20434C55535445522D494E495449414C204C45545445522053484120),
  (0x11A89, 0x534F594F4D424F20434C55535445522D494E495449414C204C455454455220534120),
  (0x11A8A, 0x534F594F4D424F2046494E414C20434F4E534F4E414E54205349474E204720),
  (0x11A8B, 0x534F594F4D424F2046494E414C20434F4E534F4E414E54205349474E204B20)]
def names_315 : List (Nat × Nat) := [
  (0x11A8C, 0x534F594F4D424F2046494E414C20434F4E534F4E414E54205349474E204E4720),
  (0x11A8D, 0x534F594F4D424F2046494E414C20434F4E534F4E414E54205349474E204420),
  (0x11A8E, 0x534F594F4D424F2046494E414C20434F4E534F4E414E54205349474E204E20),
  (0x11A8F, 0x534F594F4D424F2046494E414C20434F4E534F4E414E54205349474E204220),
  (0x11A90, 0x534F594F4D424F2046494E414C20434F4E534F4E414E54205349474E204D20),
  (0x11A91, 0x534F594F4D424F2046494E414C20434F4E534F4E414E54205349474E205220),
  (0x11A92, 0x534F594F4D424F2046494E414C20434F4E534F4E414E54205349474E204C20),
  (0x11A93, 0x534F594F4D424F2046494E414C20434F4E534F4E414E54205349474E20534820),
  (0x11A94, 0x534F594F4D424F2046494E414C20434F4E534F4E414E54205349474E205320),
  (0x11A95, 0x534F594F4D424F2046494E414C20434F4E534F4E414E54205349474E202D4120),
  (0x11A96, 0x534F594F4D424F205349474E20414E55535641524120),
  (0x11A97, 0x534F594F4D424F205349474E205649534152474120),
  (0x11A98, 0x534F594F4D424F2047454D494E4154494F4E204D41524B20),
  (0x11A99, 0x534F594F4D424F205355424A4F494E455220),
  (0x11A9A, 0x534F594F4D424F204D41524B20545348454720),
  (0x11A9B, 0x534F594F4D424F204D41524B205348414420),
  (0x11A9C, 0x534F594F4D424F204D41524B20444F55424C45205348414420),
  (0x11A9E, 0x534F594F4D424F2048454144204D41524B2057495448204D4F4F4E20414E442053554E20414E4420545249504C4520464C414D4520),
  (0x11A9F, 0x534F594F4D424F2048454144204D41524B2057495448204D4F4F4E20414E442053554E20414E4420464C414D4520),
  (0x11AA0, 0x534F594F4D424F2048454144204D41524B2057495448204D4F4F4E20414E442053554E20),
  (0x11AA1, 0x534F594F4D424F205445524D494E414C204D41524B2D3120),
  (0x11AA2, 0x534F594F4D424F205445524D494E414C204D41524B2D3220),
  (0x11AC0, 0x5041552043494E20484155204C455454455220504120),
  (0x11AC1, 0x5041552043494E20484155204C4554544552204B4120),
  (0x11AC2, 0x5041552043494E20484155204C4554544552204C4120),
  (0x11AC3, 0x5041552043494E20484155204C4554544552204D4120),
  (0x11AC4, 0x5041552043494E20484155204C455454455220444120),
  (0x11AC5, 0x5041552043494E20484155204C4554544552205A4120),
  (0x11AC6, 0x5041552043494E20484155204C455454455220564120),
  (0x11AC7, 0x5041552043494E20484155204C4554544552204E474120),
  (0x11AC8, 0x5041552043494E20484155204C455454455220484120),
  (0x11AC9, 0x5041552043494E20484155204C455454455220474120),
  (0x11ACA, 0x5041552043494E20484155204C4554544552204B484120),
  (0x11ACB, 0x5041552043494E20484155204C455454455220534120),
  (0x11ACC, 0x5041552043494E20484155204C455454455220424120),
  (0x11ACD, 0x5041552043494E20484155204C455454455220434120),
  (0x11ACE, 0x5041552043494E20484155204C455454455220544120),
  (0x11ACF, 0x5041552043494E20484155204C45545445522054484120),
  (0x11AD0, 0x5041552043494E20484155204C4554544552204E4120),
  (0x11AD1, 0x5041552043494E20484155204C45545445522050484120),
  (0x11AD2, 0x5041552043494E20484155204C455454455220524120),
  (0x11AD3, 0x5041552043494E20484155204C455454455220464120),
  (0x11AD4, 0x5041552043494E20484155204C45545445522043484120),
  (0x11AD5, 0x5041552043494E20484155204C4554544552204120),
  (0x11AD6, 0x5041552043494E20484155204C4554544552204520),
  (0x11AD7, 0x5041552043494E20484155204C4554544552204920),
  (0x11AD8, 0x5041552043494E20484155204C4554544552204F20),
  (0x11AD9, 0x5041552043494E20484155204C4554544552205520),
  (0x11ADA, 0x5041552043494E20484155204C455454455220554120),
  (0x11ADB, 0x5041552043494E20484155204C455454455220494120),
  (0x11ADC, 0x5041552043494E20484155204C45545445522046494E414C205020),
  (0x11ADD, 0x5041552043494E20484155204C45545445522046494E414C204B20),
  (0x11ADE, 0x5041552043494E20484155204C45545445522046494E414C205420),
  (0x11ADF, 0x5041552043494E20484155204C45545445522046494E414C204D20),
  (0x11AE0, 0x5041552043494E20484155204C45545445522046494E414C204E20),
  (0x11AE1, 0x5041552043494E20484155204C45545445522046494E414C204C20),
  (0x11AE2, 0x5041552043494E20484155204C45545445522046494E414C205720),
  (0x11AE3, 0x5041552043494E20484155204C45545445522046494E414C204E4720),
  (0x11AE4, 0x5041552043494E20484155204C45545445522046494E414C205920),
  (0x11AE5, 0x5041552043494E2048415520524953494E4720544F4E45204C4F4E4720),
  (0x11AE6, 0x5041552043494E2048415520524953494E4720544F4E4520),
  (0x11AE7, 0x5041552043494E204841552053414E44484920474C4F5454414C2053544F5020),
  (0x11AE8, 0x5041552043494E2048415520524953494E4720544F4E45204C4F4E472046494E414C20),
  (0x11AE9, 0x5041552043494E2048415520524953494E4720544F4E452046494E414C20)]
def names_316 : List (Nat × Nat) := [
  (0x11AEA, 0x5041552043494E204841552053414E44484920474C4F5454414C2053544F502046494E414C20),
  (0x11AEB, 0x5041552043494E204841552053414E44484920544F4E45204C4F4E4720),
  (0x11AEC, 0x5041552043494E204841552053414E44484920544F4E4520),
  (0x11AED, 0x5041552043494E204841552053414E44484920544F4E45204C4F4E472046494E414C20),
  (0x11AEE, 0x5041552043494E204841552053414E44484920544F4E452046494E414C20),
  (0x11AEF, 0x5041552043494E20484155204D49442D4C4556454C20544F4E4520),
  (0x11AF0, 0x5041552043494E2048415520474C4F5454414C2053544F502056415249414E5420),
  (0x11AF1, 0x5041552043494E20484155204D49442D4C4556454C20544F4E45204C4F4E472046494E414C20),
  (0x11AF2, 0x5041552043494E20484155204D49442D4C4556454C20544F4E452046494E414C20),
  (0x11AF3, 0x5041552043494E20484155204C4F572D46414C4C494E4720544F4E45204C4F4E4720),
  (0x11AF4, 0x5041552043494E20484155204C4F572D46414C4C494E4720544F4E4520),
  (0x11AF5, 0x5041552043494E2048415520474C4F5454414C2053544F5020),
  (0x11AF6, 0x5041552043494E20484155204C4F572D46414C4C494E4720544F4E45204C4F4E472046494E414C20),
  (0x11AF7, 0x5041552043494E20484155204C4F572D46414C4C494E4720544F4E452046494E414C20),
  (0x11AF8, 0x5041552043494E2048415520474C4F5454414C2053544F502046494E414C20),
  (0x11C00, 0x424841494B53554B49204C4554544552204120),
  (0x11C01, 0x424841494B53554B49204C455454455220414120),
  (0x11C02, 0x424841494B53554B49204C4554544552204920),
  (0x11C03, 0x424841494B53554B49204C455454455220494920),
  (0x11C04, 0x424841494B53554B49204C4554544552205520),
  (0x11C05, 0x424841494B53554B49204C455454455220555520),
  (0x11C06, 0x424841494B53554B49204C455454455220564F43414C4943205220),
  (0x11C07, 0x424841494B53554B49204C455454455220564F43414C494320525220),
  (0x11C08, 0x424841494B53554B49204C455454455220564F43414C4943204C20),
  (0x11C0A, 0x424841494B53554B49204C4554544552204520),
  (0x11C0B, 0x424841494B53554B49204C455454455220414920),
  (0x11C0C, 0x424841494B53554B49204C4554544552204F20),
  (0x11C0D, 0x424841494B53554B49204C455454455220415520),
  (0x11C0E, 0x424841494B53554B49204C4554544552204B4120),
  (0x11C0F, 0x424841494B53554B49204C4554544552204B484120),
  (0x11C10, 0x424841494B53554B49204C455454455220474120),
  (0x11C11, 0x424841494B53554B49204C45545445522047484120),
  (0x11C12, 0x424841494B53554B49204C4554544552204E474120),
  (0x11C13, 0x424841494B53554B49204C455454455220434120),
  (0x11C14, 0x424841494B53554B49204C45545445522043484120),
  (0x11C15, 0x424841494B53554B49204C4554544552204A4120),
  (0x11C16, 0x424841494B53554B49204C4554544552204A484120),
  (0x11C17, 0x424841494B53554B49204C4554544552204E594120),
  (0x11C18, 0x424841494B53554B49204C45545445522054544120),
  (0x11C19, 0x424841494B53554B49204C4554544552205454484120),
  (0x11C1A, 0x424841494B53554B49204C45545445522044444120),
  (0x11C1B, 0x424841494B53554B49204C4554544552204444484120),
  (0x11C1C, 0x424841494B53554B49204C4554544552204E4E4120),
  (0x11C1D, 0x424841494B53554B49204C455454455220544120),
  (0x11C1E, 0x424841494B53554B49204C45545445522054484120),
  (0x11C1F, 0x424841494B53554B49204C455454455220444120),
  (0x11C20, 0x424841494B53554B49204C45545445522044484120),
  (0x11C21, 0x424841494B53554B49204C4554544552204E4120),
  (0x11C22, 0x424841494B53554B49204C455454455220504120),
  (0x11C23, 0x424841494B53554B49204C45545445522050484120),
  (0x11C24, 0x424841494B53554B49204C455454455220424120),
  (0x11C25, 0x424841494B53554B49204C45545445522042484120),
  (0x11C26, 0x424841494B53554B49204C4554544552204D4120),
  (0x11C27, 0x424841494B53554B49204C455454455220594120),
  (0x11C28, 0x424841494B53554B49204C455454455220524120),
  (0x11C29, 0x424841494B53554B49204C4554544552204C4120),
  (0x11C2A, 0x424841494B53554B49204C455454455220564120),
  (0x11C2B, 0x424841494B53554B49204C45545445522053484120),
  (0x11C2C, 0x424841494B53554B49204C45545445522053534120),
  (0x11C2D, 0x424841494B53554B49204C455454455220534120),
  (0x11C2E, 0x424841494B53554B49204C455454455220484120),
  (0x11C2F, 0x424841494B53554B4920564F57454C205349474E20414120),
  (0x11C30, 0x424841494B53554B4920564F57454C205349474E204920),
  (0x11C31, 0x424841494B53554B4920564F57454C205349474E20494920)]
def names_317 : List (Nat × Nat) := [
  (0x11C32, 0x424841494B53554B4920564F57454C205349474E205520),
  (0x11C33, 0x424841494B53554B4920564F57454C205349474E20555520),
  (0x11C34, 0x424841494B53554B4920564F57454C205349474E20564F43414C4943205220),
  (0x11C35, 0x424841494B53554B4920564F57454C205349474E20564F43414C494320525220),
  (0x11C36, 0x424841494B53554B4920564F57454C205349474E20564F43414C4943204C20),
  (0x11C38, 0x424841494B53554B4920564F57454C205349474E204520),
  (0x11C39, 0x424841494B53554B4920564F57454C205349474E20414920),
  (0x11C3A, 0x424841494B53554B4920564F57454C205349474E204F20),
  (0x11C3B, 0x424841494B53554B4920564F57454C205349474E20415520),
  (0x11C3C, 0x424841494B53554B49205349474E2043414E44524142494E445520),
  (0x11C3D, 0x424841494B53554B49205349474E20414E55535641524120),
  (0x11C3E, 0x424841494B53554B49205349474E205649534152474120),
  (0x11C3F, 0x424841494B53554B49205349474E20564952414D4120),
  (0x11C40, 0x424841494B53554B49205349474E20415641475241484120),
  (0x11C41, 0x424841494B53554B492044414E444120),
  (0x11C42, 0x424841494B53554B4920444F55424C452044414E444120),
  (0x11C43, 0x424841494B53554B4920574F524420534550415241544F5220),
  (0x11C44, 0x424841494B53554B49204741502046494C4C45522D3120),
  (0x11C45, 0x424841494B53554B49204741502046494C4C45522D3220),
  (0x11C50, 0x424841494B53554B49204449474954205A45524F20),
  (0x11C51, 0x424841494B53554B49204449474954204F4E4520),
  (0x11C52, 0x424841494B53554B492044494749542054574F20),
  (0x11C53, 0x424841494B53554B4920444947495420544852454520),
  (0x11C54, 0x424841494B53554B4920444947495420464F555220),
  (0x11C55, 0x424841494B53554B49204449474954204649564520),
  (0x11C56, 0x424841494B53554B492044494749542053495820),
  (0x11C57, 0x424841494B53554B4920444947495420534556454E20),
  (0x11C58, 0x424841494B53554B4920444947495420454947485420),
  (0x11C59, 0x424841494B53554B49204449474954204E494E4520),
  (0x11C5A, 0x424841494B53554B49204E554D424552204F4E4520),
  (0x11C5B, 0x424841494B53554B49204E554D4245522054574F20),
  (0x11C5C, 0x424841494B53554B49204E554D42455220544852454520),
  (0x11C5D, 0x424841494B53554B49204E554D42455220464F555220),
  (0x11C5E, 0x424841494B53554B49204E554D424552204649564520),
  (0x11C5F, 0x424841494B53554B49204E554D4245522053495820),
  (0x11C60, 0x424841494B53554B49204E554D42455220534556454E20),
  (0x11C61, 0x424841494B53554B49204E554D42455220454947485420),
  (0x11C62, 0x424841494B53554B49204E554D424552204E494E4520),
  (0x11C63, 0x424841494B53554B49204E554D4245522054454E20),
  (0x11C64, 0x424841494B53554B49204E554D424552205457454E545920),
  (0x11C65, 0x424841494B53554B49204E554D4245522054484952545920),
  (0x11C66, 0x424841494B53554B49204E554D42455220464F52545920),
  (0x11C67, 0x424841494B53554B49204E554D42455220464946545920),
  (0x11C68, 0x424841494B53554B49204E554D42455220534958545920),
  (0x11C69, 0x424841494B53554B49204E554D42455220534556454E545920),
  (0x11C6A, 0x424841494B53554B49204E554D4245522045494748545920),
  (0x11C6B, 0x424841494B53554B49204E554D424552204E494E45545920),
  (0x11C6C, 0x424841494B53554B492048554E445245445320554E4954204D41524B20),
  (0x11C70, 0x4D41524348454E2048454144204D41524B20),
  (0x11C71, 0x4D41524348454E204D41524B205348414420),
  (0x11C72, 0x4D41524348454E204C4554544552204B4120),
  (0x11C73, 0x4D41524348454E204C4554544552204B484120),
  (0x11C74, 0x4D41524348454E204C455454455220474120),
  (0x11C75, 0x4D41524348454E204C4554544552204E474120),
  (0x11C76, 0x4D41524348454E204C455454455220434120),
  (0x11C77, 0x4D41524348454E204C45545445522043484120),
  (0x11C78, 0x4D41524348454E204C4554544552204A4120),
  (0x11C79, 0x4D41524348454E204C4554544552204E594120),
  (0x11C7A, 0x4D41524348454E204C455454455220544120),
  (0x11C7B, 0x4D41524348454E204C45545445522054484120),
  (0x11C7C, 0x4D41524348454E204C455454455220444120),
  (0x11C7D, 0x4D41524348454E204C4554544552204E4120),
  (0x11C7E, 0x4D41524348454E204C455454455220504120),
  (0x11C7F, 0x4D41524348454E204C45545445522050484120)]
def names_318 : List (Nat × Nat) := [
  (0x11C80, 0x4D41524348454E204C455454455220424120),
  (0x11C81, 0x4D41524348454E204C4554544552204D4120),
  (0x11C82, 0x4D41524348454E204C45545445522054534120),
  (0x11C83, 0x4D41524348454E204C4554544552205453484120),
  (0x11C84, 0x4D41524348454E204C455454455220445A4120),
  (0x11C85, 0x4D41524348454E204C455454455220574120),
  (0x11C86, 0x4D41524348454E204C4554544552205A484120),
  (0x11C87, 0x4D41524348454E204C4554544552205A4120),
  (0x11C88, 0x4D41524348454E204C4554544552202D4120),
  (0x11C89, 0x4D41524348454E204C455454455220594120),
  (0x11C8A, 0x4D41524348454E204C455454455220524120),
  (0x11C8B, 0x4D41524348454E204C4554544552204C4120),
  (0x11C8C, 0x4D41524348454E204C45545445522053484120),
  (0x11C8D, 0x4D41524348454E204C455454455220534120),
  (0x11C8E, 0x4D41524348454E204C455454455220484120),
  (0x11C8F, 0x4D41524348454E204C4554544552204120),
  (0x11C92, 0x4D41524348454E205355424A4F494E4544204C4554544552204B4120),
  (0x11C93, 0x4D41524348454E205355424A4F494E4544204C4554544552204B484120),
  (0x11C94, 0x4D41524348454E205355424A4F494E4544204C455454455220474120),
  (0x11C95, 0x4D41524348454E205355424A4F494E4544204C4554544552204E474120),
  (0x11C96, 0x4D41524348454E205355424A4F494E4544204C455454455220434120),
  (0x11C97, 0x4D41524348454E205355424A4F494E4544204C45545445522043484120),
  (0x11C98, 0x4D41524348454E205355424A4F494E4544204C4554544552204A4120),
  (0x11C99, 0x4D41524348454E205355424A4F494E4544204C4554544552204E594120),
  (0x11C9A, 0x4D41524348454E205355424A4F494E4544204C455454455220544120),
  (0x11C9B, 0x4D41524348454E205355424A4F494E4544204C45545445522054484120),
  (0x11C9C, 0x4D41524348454E205355424A4F494E4544204C455454455220444120),
  (0x11C9D, 0x4D41524348454E205355424A4F494E4544204C4554544552204E4120),
  (0x11C9E, 0x4D41524348454E205355424A4F494E4544204C455454455220504120),
  (0x11C9F, 0x4D41524348454E205355424A4F494E4544204C45545445522050484120),
  (0x11CA0, 0x4D41524348454E205355424A4F494E4544204C455454455220424120),
  (0x11CA1, 0x4D41524348454E205355424A4F494E4544204C4554544552204D4120),
  (0x11CA2, 0x4D41524348454E205355424A4F494E4544204C45545445522054534120),
  (0x11CA3, 0x4D41524348454E205355424A4F494E4544204C4554544552205453484120),
  (0x11CA4, 0x4D41524348454E205355424A4F494E4544204C455454455220445A4120),
  (0x11CA5, 0x4D41524348454E205355424A4F494E4544204C455454455220574120),
  (0x11CA6, 0x4D41524348454E205355424A4F494E4544204C4554544552205A484120),
  (0x11CA7, 0x4D41524348454E205355424A4F494E4544204C4554544552205A4120),
  (0x11CA9, 0x4D41524348454E205355424A4F494E4544204C455454455220594120),
  (0x11CAA, 0x4D41524348454E205355424A4F494E4544204C455454455220524120),
  (0x11CAB, 0x4D41524348454E205355424A4F494E4544204C4554544552204C4120),
  (0x11CAC, 0x4D41524348454E205355424A4F494E4544204C45545445522053484120),
  (0x11CAD, 0x4D41524348454E205355424A4F494E4544204C455454455220534120),
  (0x11CAE, 0x4D41524348454E205355424A4F494E4544204C455454455220484120),
  (0x11CAF, 0x4D41524348454E205355424A4F494E4544204C4554544552204120),
  (0x11CB0, 0x4D41524348454E20564F57454C205349474E20414120),
  (0x11CB1, 0x4D41524348454E20564F57454C205349474E204920),
  (0x11CB2, 0x4D41524348454E20564F57454C205349474E205520),
  (0x11CB3, 0x4D41524348454E20564F57454C205349474E204520),
  (0x11CB4, 0x4D41524348454E20564F57454C205349474E204F20),
  (0x11CB5, 0x4D41524348454E205349474E20414E55535641524120),
  (0x11CB6, 0x4D41524348454E205349474E2043414E44524142494E445520),
  (0x11D00, 0x4D41534152414D20474F4E4449204C4554544552204120),
  (0x11D01, 0x4D41534152414D20474F4E4449204C455454455220414120),
  (0x11D02, 0x4D41534152414D20474F4E4449204C4554544552204920),
  (0x11D03, 0x4D41534152414D20474F4E4449204C455454455220494920),
  (0x11D04, 0x4D41534152414D20474F4E4449204C4554544552205520),
  (0x11D05, 0x4D41534152414D20474F4E4449204C455454455220555520),
  (0x11D06, 0x4D41534152414D20474F4E4449204C4554544552204520),
  (0x11D08, 0x4D41534152414D20474F4E4449204C455454455220414920),
  (0x11D09, 0x4D41534152414D20474F4E4449204C4554544552204F20),
  (0x11D0B, 0x4D41534152414D20474F4E4449204C455454455220415520),
  (0x11D0C, 0x4D41534152414D20474F4E4449204C4554544552204B4120),
  (0x11D0D, 0x4D41534152414D20474F4E4449204C4554544552204B484120)]
def names_319 : List (Nat × Nat) := [
  (0x11D0E, 0x4D41534152414D20474F4E4449204C455454455220474120),
  (0x11D0F, 0x4D41534152414D20474F4E4449204C45545445522047484120),
  (0x11D10, 0x4D41534152414D20474F4E4449204C4554544552204E474120),
  (0x11D11, 0x4D41534152414D20474F4E4449204C455454455220434120),
  (0x11D12, 0x4D41534152414D20474F4E4449204C45545445522043484120),
  (0x11D13, 0x4D41534152414D20474F4E4449204C4554544552204A4120),
  (0x11D14, 0x4D41534152414D20474F4E4449204C4554544552204A484120),
  (0x11D15, 0x4D41534152414D20474F4E4449204C4554544552204E594120),
  (0x11D16, 0x4D41534152414D20474F4E4449204C45545445522054544120),
  (0x11D17, 0x4D41534152414D20474F4E4449204C4554544552205454484120),
  (0x11D18, 0x4D41534152414D20474F4E4449204C45545445522044444120),
  (0x11D19, 0x4D41534152414D20474F4E4449204C4554544552204444484120),
  (0x11D1A, 0x4D41534152414D20474F4E4449204C4554544552204E4E4120),
  (0x11D1B, 0x4D41534152414D20474F4E4449204C455454455220544120),
  (0x11D1C, 0x4D41534152414D20474F4E4449204C45545445522054484120),
  (0x11D1D, 0x4D41534152414D20474F4E4449204C455454455220444120),
  (0x11D1E, 0x4D41534152414D20474F4E4449204C45545445522044484120),
  (0x11D1F, 0x4D41534152414D20474F4E4449204C4554544552204E4120),
  (0x11D20, 0x4D41534152414D20474F4E4449204C455454455220504120),
  (0x11D21, 0x4D41534152414D20474F4E4449204C45545445522050484120),
  (0x11D22, 0x4D41534152414D20474F4E4449204C455454455220424120),
  (0x11D23, 0x4D41534152414D20474F4E4449204C45545445522042484120),
  (0x11D24, 0x4D41534152414D20474F4E4449204C4554544552204D4120),
  (0x11D25, 0x4D41534152414D20474F4E4449204C455454455220594120),
  (0x11D26, 0x4D41534152414D20474F4E4449204C455454455220524120),
  (0x11D27, 0x4D41534152414D20474F4E4449204C4554544552204C4120),
  (0x11D28, 0x4D41534152414D20474F4E4449204C455454455220564120),
  (0x11D29, 0x4D41534152414D20474F4E4449204C45545445522053484120),
  (0x11D2A, 0x4D41534152414D20474F4E4449204C45545445522053534120),
  (0x11D2B, 0x4D41534152414D20474F4E4449204C455454455220534120),
  (0x11D2C, 0x4D41534152414D20474F4E4449204C455454455220484120),
  (0x11D2D, 0x4D41534152414D20474F4E4449204C4554544552204C4C4120),
  (0x11D2E, 0x4D41534152414D20474F4E4449204C4554544552204B53534120),
  (0x11D2F, 0x4D41534152414D20474F4E4449204C4554544552204A4E594120),
  (0x11D30, 0x4D41534152414D20474F4E4449204C45545445522054524120),
  (0x11D31, 0x4D41534152414D20474F4E444920564F57454C205349474E20414120),
  (0x11D32, 0x4D41534152414D20474F4E444920564F57454C205349474E204920),
  (0x11D33, 0x4D41534152414D20474F4E444920564F57454C205349474E20494920),
  (0x11D34, 0x4D41534152414D20474F4E444920564F57454C205349474E205520),
  (0x11D35, 0x4D41534152414D20474F4E444920564F57454C205349474E20555520),
  (0x11D36, 0x4D41534152414D20474F4E444920564F57454C205349474E20564F43414C4943205220),
  (0x11D3A, 0x4D41534152414D20474F4E444920564F57454C205349474E204520),
  (0x11D3C, 0x4D41534152414D20474F4E444920564F57454C205349474E20414920),
  (0x11D3D, 0x4D41534152414D20474F4E444920564F57454C205349474E204F20),
  (0x11D3F, 0x4D41534152414D20474F4E444920564F57454C205349474E20415520),
  (0x11D40, 0x4D41534152414D20474F4E4449205349474E20414E55535641524120),
  (0x11D41, 0x4D41534152414D20474F4E4449205349474E205649534152474120),
  (0x11D42, 0x4D41534152414D20474F4E4449205349474E204E554B544120),
  (0x11D43, 0x4D41534152414D20474F4E4449205349474E2043414E44524120),
  (0x11D44, 0x4D41534152414D20474F4E4449205349474E2048414C414E544120),
  (0x11D45, 0x4D41534152414D20474F4E444920564952414D4120),
  (0x11D46, 0x4D41534152414D20474F4E444920524550484120),
  (0x11D47, 0x4D41534152414D20474F4E44492052412D4B41524120),
  (0x11D50, 0x4D41534152414D20474F4E4449204449474954205A45524F20),
  (0x11D51, 0x4D41534152414D20474F4E4449204449474954204F4E4520),
  (0x11D52, 0x4D41534152414D20474F4E44492044494749542054574F20),
  (0x11D53, 0x4D41534152414D20474F4E444920444947495420544852454520),
  (0x11D54, 0x4D41534152414D20474F4E444920444947495420464F555220),
  (0x11D55, 0x4D41534152414D20474F4E4449204449474954204649564520),
  (0x11D56, 0x4D41534152414D20474F4E44492044494749542053495820),
  (0x11D57, 0x4D41534152414D20474F4E444920444947495420534556454E20),
  (0x11D58, 0x4D41534152414D20474F4E444920444947495420454947485420),
  (0x11D59, 0x4D41534152414D20474F4E4449204449474954204E494E4520),
  (0x12000, 0x43554E4549464F524D205349474E204120)]
def names_320 : List (Nat × Nat) := [
  (0x12001, 0x43554E4549464F524D205349474E20412054494D4553204120),
  (0x12002, 0x43554E4549464F524D205349474E20412054494D45532042414420),
  (0x12003, 0x43554E4549464F524D205349474E20412054494D45532047414E322054454E5520),
  (0x12004, 0x43554E4549464F524D205349474E20412054494D455320484120),
  (0x12005, 0x43554E4549464F524D205349474E20412054494D45532049474920),
  (0x12006, 0x43554E4549464F524D205349474E20412054494D4553204C414741522047554E5520),
  (0x12007, 0x43554E4549464F524D205349474E20412054494D4553204D55534820),
  (0x12008, 0x43554E4549464F524D205349474E20412054494D45532053414720),
  (0x12009, 0x43554E4549464F524D205349474E20413220),
  (0x1200A, 0x43554E4549464F524D205349474E20414220),
  (0x1200B, 0x43554E4549464F524D205349474E2041422054494D4553204153483220),
  (0x1200C, 0x43554E4549464F524D205349474E2041422054494D45532044554E332047554E5520),
  (0x1200D, 0x43554E4549464F524D205349474E2041422054494D45532047414C20),
  (0x1200E, 0x43554E4549464F524D205349474E2041422054494D45532047414E322054454E5520),
  (0x1200F, 0x43554E4549464F524D205349474E2041422054494D455320484120),
  (0x12010, 0x43554E4549464F524D205349474E2041422054494D4553204947492047554E5520),
  (0x12011, 0x43554E4549464F524D205349474E2041422054494D455320494D494E20),
  (0x12012, 0x43554E4549464F524D205349474E2041422054494D4553204C4147414220),
  (0x12013, 0x43554E4549464F524D205349474E2041422054494D455320534845534820),
  (0x12014, 0x43554E4549464F524D205349474E2041422054494D4553205520504C5553205520504C5553205520),
  (0x12015, 0x43554E4549464F524D205349474E2041422047554E5520),
  (0x12016, 0x43554E4549464F524D205349474E2041423220),
  (0x12017, 0x43554E4549464F524D205349474E204142322054494D45532042414C414720),
  (0x12018, 0x43554E4549464F524D205349474E204142322054494D45532047414E322054454E5520),
  (0x12019, 0x43554E4549464F524D205349474E204142322054494D4553204D4520504C555320454E20),
  (0x1201A, 0x43554E4549464F524D205349474E204142322054494D4553205348413320),
  (0x1201B, 0x43554E4549464F524D205349474E204142322054494D45532054414B3420),
  (0x1201C, 0x43554E4549464F524D205349474E20414420),
  (0x1201D, 0x43554E4549464F524D205349474E20414B20),
  (0x1201E, 0x43554E4549464F524D205349474E20414B2054494D4553204552494E3220),
  (0x1201F, 0x43554E4549464F524D205349474E20414B2054494D455320534849544120504C5553204749534820),
  (0x12020, 0x43554E4549464F524D205349474E20414C20),
  (0x12021, 0x43554E4549464F524D205349474E20414C2054494D455320414C20),
  (0x12022, 0x43554E4549464F524D205349474E20414C2054494D45532044494D3220),
  (0x12023, 0x43554E4549464F524D205349474E20414C2054494D4553204749534820),
  (0x12024, 0x43554E4549464F524D205349474E20414C2054494D455320484120),
  (0x12025, 0x43554E4549464F524D205349474E20414C2054494D4553204B41443320),
  (0x12026, 0x43554E4549464F524D205349474E20414C2054494D4553204B4920),
  (0x12027, 0x43554E4549464F524D205349474E20414C2054494D45532053484520),
  (0x12028, 0x43554E4549464F524D205349474E20414C2054494D45532055534820),
  (0x12029, 0x43554E4549464F524D205349474E20414C414E20),
  (0x1202A, 0x43554E4549464F524D205349474E20414C45504820),
  (0x1202B, 0x43554E4549464F524D205349474E20414D415220),
  (0x1202C, 0x43554E4549464F524D205349474E20414D41522054494D45532053484520),
  (0x1202D, 0x43554E4549464F524D205349474E20414E20),
  (0x1202E, 0x43554E4549464F524D205349474E20414E204F56455220414E20),
  (0x1202F, 0x43554E4549464F524D205349474E20414E2054485245452054494D455320),
  (0x12030, 0x43554E4549464F524D205349474E20414E20504C5553204E414741204F50504F53494E4720414E20504C5553204E41474120),
  (0x12031, 0x43554E4549464F524D205349474E20414E20504C5553204E414741205351554152454420),
  (0x12032, 0x43554E4549464F524D205349474E20414E53484520),
  (0x12033, 0x43554E4549464F524D205349474E204150494E20),
  (0x12034, 0x43554E4549464F524D205349474E204152414420),
  (0x12035, 0x43554E4549464F524D205349474E20415241442054494D4553204B555220),
  (0x12036, 0x43554E4549464F524D205349474E2041524B414220),
  (0x12037, 0x43554E4549464F524D205349474E204153414C3220),
  (0x12038, 0x43554E4549464F524D205349474E2041534820),
  (0x12039, 0x43554E4549464F524D205349474E20415348205A4944412054454E5520),
  (0x1203A, 0x43554E4549464F524D205349474E20415348204B4142412054454E5520),
  (0x1203B, 0x43554E4549464F524D205349474E20415348204F564552204153482054554732204F56455220545547322054554732204F56455220545547322050415020),
  (0x1203C, 0x43554E4549464F524D205349474E20415348204F56455220415348204F5645522041534820),
  (0x1203D, 0x43554E4549464F524D205349474E20415348204F56455220415348204F564552204153482043524F5353494E4720415348204F56455220415348204F5645522041534820),
  (0x1203E, 0x43554E4549464F524D205349474E204153483220),
  (0x1203F, 0x43554E4549464F524D205349474E2041534847414220),
  (0x12040, 0x43554E4549464F524D205349474E20424120)]
def names_321 : List (Nat × Nat) := [
  (0x12041, 0x43554E4549464F524D205349474E2042414420),
  (0x12042, 0x43554E4549464F524D205349474E204241473320),
  (0x12043, 0x43554E4549464F524D205349474E2042414841523220),
  (0x12044, 0x43554E4549464F524D205349474E2042414C20),
  (0x12045, 0x43554E4549464F524D205349474E2042414C204F5645522042414C20),
  (0x12046, 0x43554E4549464F524D205349474E2042414C414720),
  (0x12047, 0x43554E4549464F524D205349474E2042415220),
  (0x12048, 0x43554E4549464F524D205349474E20424152413220),
  (0x12049, 0x43554E4549464F524D205349474E20424920),
  (0x1204A, 0x43554E4549464F524D205349474E2042492054494D4553204120),
  (0x1204B, 0x43554E4549464F524D205349474E2042492054494D45532047415220),
  (0x1204C, 0x43554E4549464F524D205349474E2042492054494D4553204947492047554E5520),
  (0x1204D, 0x43554E4549464F524D205349474E20425520),
  (0x1204E, 0x43554E4549464F524D205349474E204255204F56455220425520414220),
  (0x1204F, 0x43554E4549464F524D205349474E204255204F56455220425520554E20),
  (0x12050, 0x43554E4549464F524D205349474E2042552043524F5353494E4720425520),
  (0x12051, 0x43554E4549464F524D205349474E2042554C554720),
  (0x12052, 0x43554E4549464F524D205349474E2042554C5547204F5645522042554C554720),
  (0x12053, 0x43554E4549464F524D205349474E2042555220),
  (0x12054, 0x43554E4549464F524D205349474E204255523220),
  (0x12055, 0x43554E4549464F524D205349474E20444120),
  (0x12056, 0x43554E4549464F524D205349474E2044414720),
  (0x12057, 0x43554E4549464F524D205349474E20444147204B4953494D352054494D4553204120504C5553204D41534820),
  (0x12058, 0x43554E4549464F524D205349474E20444147204B4953494D352054494D455320414D415220),
  (0x12059, 0x43554E4549464F524D205349474E20444147204B4953494D352054494D45532042414C414720),
  (0x1205A, 0x43554E4549464F524D205349474E20444147204B4953494D352054494D455320424920),
  (0x1205B, 0x43554E4549464F524D205349474E20444147204B4953494D352054494D455320474120),
  (0x1205C, 0x43554E4549464F524D205349474E20444147204B4953494D352054494D455320474120504C5553204D41534820),
  (0x1205D, 0x43554E4549464F524D205349474E20444147204B4953494D352054494D455320474920),
  (0x1205E, 0x43554E4549464F524D205349474E20444147204B4953494D352054494D4553204749523220),
  (0x1205F, 0x43554E4549464F524D205349474E20444147204B4953494D352054494D45532047554420),
  (0x12060, 0x43554E4549464F524D205349474E20444147204B4953494D352054494D455320484120),
  (0x12061, 0x43554E4549464F524D205349474E20444147204B4953494D352054494D455320495220),
  (0x12062, 0x43554E4549464F524D205349474E20444147204B4953494D352054494D455320495220504C5553204C5520),
  (0x12063, 0x43554E4549464F524D205349474E20444147204B4953494D352054494D4553204B414B20),
  (0x12064, 0x43554E4549464F524D205349474E20444147204B4953494D352054494D4553204C4120),
  (0x12065, 0x43554E4549464F524D205349474E20444147204B4953494D352054494D4553204C5520),
  (0x12066, 0x43554E4549464F524D205349474E20444147204B4953494D352054494D4553204C5520504C5553204D4153483220),
  (0x12067, 0x43554E4549464F524D205349474E20444147204B4953494D352054494D4553204C554D20),
  (0x12068, 0x43554E4549464F524D205349474E20444147204B4953494D352054494D4553204E4520),
  (0x12069, 0x43554E4549464F524D205349474E20444147204B4953494D352054494D45532050415020504C55532050415020),
  (0x1206A, 0x43554E4549464F524D205349474E20444147204B4953494D352054494D455320534920),
  (0x1206B, 0x43554E4549464F524D205349474E20444147204B4953494D352054494D45532054414B3420),
  (0x1206C, 0x43554E4549464F524D205349474E20444147204B4953494D352054494D455320553220504C5553204749523220),
  (0x1206D, 0x43554E4549464F524D205349474E20444147204B4953494D352054494D45532055534820),
  (0x1206E, 0x43554E4549464F524D205349474E2044414D20),
  (0x1206F, 0x43554E4549464F524D205349474E2044415220),
  (0x12070, 0x43554E4549464F524D205349474E20444152413320),
  (0x12071, 0x43554E4549464F524D205349474E20444152413420),
  (0x12072, 0x43554E4549464F524D205349474E20444920),
  (0x12073, 0x43554E4549464F524D205349474E2044494220),
  (0x12074, 0x43554E4549464F524D205349474E2044494D20),
  (0x12075, 0x43554E4549464F524D205349474E2044494D2054494D45532053484520),
  (0x12076, 0x43554E4549464F524D205349474E2044494D3220),
  (0x12077, 0x43554E4549464F524D205349474E2044494E20),
  (0x12078, 0x43554E4549464F524D205349474E2044494E204B41534B414C20552047554E55204449534820),
  (0x12079, 0x43554E4549464F524D205349474E204449534820),
  (0x1207A, 0x43554E4549464F524D205349474E20445520),
  (0x1207B, 0x43554E4549464F524D205349474E204455204F56455220445520),
  (0x1207C, 0x43554E4549464F524D205349474E2044552047554E5520),
  (0x1207D, 0x43554E4549464F524D205349474E204455205348455348494720),
  (0x1207E, 0x43554E4549464F524D205349474E2044554220),
  (0x1207F, 0x43554E4549464F524D205349474E204455422054494D4553204553483220),
  (0x12080, 0x43554E4549464F524D205349474E204455423220)]
def names_322 : List (Nat × Nat) := [
  (0x12081, 0x43554E4549464F524D205349474E2044554720),
  (0x12082, 0x43554E4549464F524D205349474E20445547554420),
  (0x12083, 0x43554E4549464F524D205349474E2044554820),
  (0x12084, 0x43554E4549464F524D205349474E2044554E20),
  (0x12085, 0x43554E4549464F524D205349474E2044554E3320),
  (0x12086, 0x43554E4549464F524D205349474E2044554E332047554E5520),
  (0x12087, 0x43554E4549464F524D205349474E2044554E332047554E552047554E5520),
  (0x12088, 0x43554E4549464F524D205349474E2044554E3420),
  (0x12089, 0x43554E4549464F524D205349474E204455523220),
  (0x1208A, 0x43554E4549464F524D205349474E204520),
  (0x1208B, 0x43554E4549464F524D205349474E20452054494D45532050415020),
  (0x1208C, 0x43554E4549464F524D205349474E2045204F5645522045204E554E204F564552204E554E20),
  (0x1208D, 0x43554E4549464F524D205349474E20453220),
  (0x1208E, 0x43554E4549464F524D205349474E2045322054494D4553204120504C555320484120504C555320444120),
  (0x1208F, 0x43554E4549464F524D205349474E2045322054494D45532047415220),
  (0x12090, 0x43554E4549464F524D205349474E2045322054494D4553204D4920),
  (0x12091, 0x43554E4549464F524D205349474E2045322054494D45532053414C20),
  (0x12092, 0x43554E4549464F524D205349474E2045322054494D45532053484520),
  (0x12093, 0x43554E4549464F524D205349474E2045322054494D4553205520),
  (0x12094, 0x43554E4549464F524D205349474E204544494E20),
  (0x12095, 0x43554E4549464F524D205349474E204547495220),
  (0x12096, 0x43554E4549464F524D205349474E20454C20),
  (0x12097, 0x43554E4549464F524D205349474E20454E20),
  (0x12098, 0x43554E4549464F524D205349474E20454E2054494D45532047414E3220),
  (0x12099, 0x43554E4549464F524D205349474E20454E2054494D45532047414E322054454E5520),
  (0x1209A, 0x43554E4549464F524D205349474E20454E2054494D4553204D4520),
  (0x1209B, 0x43554E4549464F524D205349474E20454E2043524F5353494E4720454E20),
  (0x1209C, 0x43554E4549464F524D205349474E20454E204F50504F53494E4720454E20),
  (0x1209D, 0x43554E4549464F524D205349474E20454E205351554152454420),
  (0x1209E, 0x43554E4549464F524D205349474E204552454E20),
  (0x1209F, 0x43554E4549464F524D205349474E204552494E3220),
  (0x120A0, 0x43554E4549464F524D205349474E204553483220),
  (0x120A1, 0x43554E4549464F524D205349474E20455A454E20),
  (0x120A2, 0x43554E4549464F524D205349474E20455A454E2054494D4553204120),
  (0x120A3, 0x43554E4549464F524D205349474E20455A454E2054494D4553204120504C5553204C414C20),
  (0x120A4, 0x43554E4549464F524D205349474E20455A454E2054494D4553204120504C5553204C414C2054494D4553204C414C20),
  (0x120A5, 0x43554E4549464F524D205349474E20455A454E2054494D455320414E20),
  (0x120A6, 0x43554E4549464F524D205349474E20455A454E2054494D45532042414420),
  (0x120A7, 0x43554E4549464F524D205349474E20455A454E2054494D45532044554E332047554E5520),
  (0x120A8, 0x43554E4549464F524D205349474E20455A454E2054494D45532044554E332047554E552047554E5520),
  (0x120A9, 0x43554E4549464F524D205349474E20455A454E2054494D455320484120),
  (0x120AA, 0x43554E4549464F524D205349474E20455A454E2054494D45532048412047554E5520),
  (0x120AB, 0x43554E4549464F524D205349474E20455A454E2054494D4553204947492047554E5520),
  (0x120AC, 0x43554E4549464F524D205349474E20455A454E2054494D4553204B41534B414C20),
  (0x120AD, 0x43554E4549464F524D205349474E20455A454E2054494D4553204B41534B414C205351554152454420),
  (0x120AE, 0x43554E4549464F524D205349474E20455A454E2054494D4553204B553320),
  (0x120AF, 0x43554E4549464F524D205349474E20455A454E2054494D4553204C4120),
  (0x120B0, 0x43554E4549464F524D205349474E20455A454E2054494D4553204C414C2054494D4553204C414C20),
  (0x120B1, 0x43554E4549464F524D205349474E20455A454E2054494D4553204C4920),
  (0x120B2, 0x43554E4549464F524D205349474E20455A454E2054494D4553204C5520),
  (0x120B3, 0x43554E4549464F524D205349474E20455A454E2054494D455320553220),
  (0x120B4, 0x43554E4549464F524D205349474E20455A454E2054494D455320554420),
  (0x120B5, 0x43554E4549464F524D205349474E20474120),
  (0x120B6, 0x43554E4549464F524D205349474E2047412047554E5520),
  (0x120B7, 0x43554E4549464F524D205349474E2047413220),
  (0x120B8, 0x43554E4549464F524D205349474E204741322054494D4553204120504C555320444120504C555320484120),
  (0x120B9, 0x43554E4549464F524D205349474E204741322054494D4553204120504C555320484120),
  (0x120BA, 0x43554E4549464F524D205349474E204741322054494D4553204120504C55532049474920),
  (0x120BB, 0x43554E4549464F524D205349474E204741322054494D4553204142322054454E5520504C55532054414220),
  (0x120BC, 0x43554E4549464F524D205349474E204741322054494D455320414E20),
  (0x120BD, 0x43554E4549464F524D205349474E204741322054494D45532041534820),
  (0x120BE, 0x43554E4549464F524D205349474E204741322054494D4553204153483220504C55532047414C20),
  (0x120BF, 0x43554E4549464F524D205349474E204741322054494D45532042414420),
  (0x120C0, 0x43554E4549464F524D205349474E204741322054494D45532042415220504C555320524120)]
def names_323 : List (Nat × Nat) := [
  (0x120C1, 0x43554E4549464F524D205349474E204741322054494D45532042555220),
  (0x120C2, 0x43554E4549464F524D205349474E204741322054494D45532042555220504C555320524120),
  (0x120C3, 0x43554E4549464F524D205349474E204741322054494D455320444120),
  (0x120C4, 0x43554E4549464F524D205349474E204741322054494D455320444920),
  (0x120C5, 0x43554E4549464F524D205349474E204741322054494D45532044494D2054494D45532053484520),
  (0x120C6, 0x43554E4549464F524D205349474E204741322054494D45532044554220),
  (0x120C7, 0x43554E4549464F524D205349474E204741322054494D455320454C20),
  (0x120C8, 0x43554E4549464F524D205349474E204741322054494D455320454C20504C5553204C4120),
  (0x120C9, 0x43554E4549464F524D205349474E204741322054494D455320454E20),
  (0x120CA, 0x43554E4549464F524D205349474E204741322054494D455320454E2054494D45532047414E322054454E5520),
  (0x120CB, 0x43554E4549464F524D205349474E204741322054494D45532047414E322054454E5520),
  (0x120CC, 0x43554E4549464F524D205349474E204741322054494D45532047415220),
  (0x120CD, 0x43554E4549464F524D205349474E204741322054494D455320474920),
  (0x120CE, 0x43554E4549464F524D205349474E204741322054494D45532047493420),
  (0x120CF, 0x43554E4549464F524D205349474E204741322054494D45532047493420504C5553204120),
  (0x120D0, 0x43554E4549464F524D205349474E204741322054494D4553204749523220504C555320535520),
  (0x120D1, 0x43554E4549464F524D205349474E204741322054494D455320484120504C5553204C5520504C5553204553483220),
  (0x120D2, 0x43554E4549464F524D205349474E204741322054494D45532048414C20),
  (0x120D3, 0x43554E4549464F524D205349474E204741322054494D45532048414C20504C5553204C4120),
  (0x120D4, 0x43554E4549464F524D205349474E204741322054494D455320484920504C5553204C4920),
  (0x120D5, 0x43554E4549464F524D205349474E204741322054494D4553204855423220),
  (0x120D6, 0x43554E4549464F524D205349474E204741322054494D4553204947492047554E5520),
  (0x120D7, 0x43554E4549464F524D205349474E204741322054494D45532049534820504C555320485520504C55532041534820),
  (0x120D8, 0x43554E4549464F524D205349474E204741322054494D4553204B414B20),
  (0x120D9, 0x43554E4549464F524D205349474E204741322054494D4553204B41534B414C20),
  (0x120DA, 0x43554E4549464F524D205349474E204741322054494D4553204B494420),
  (0x120DB, 0x43554E4549464F524D205349474E204741322054494D4553204B494420504C5553204C414C20),
  (0x120DC, 0x43554E4549464F524D205349474E204741322054494D4553204B553320504C555320414E20),
  (0x120DD, 0x43554E4549464F524D205349474E204741322054494D4553204C4120),
  (0x120DE, 0x43554E4549464F524D205349474E204741322054494D4553204D4520504C555320454E20),
  (0x120DF, 0x43554E4549464F524D205349474E204741322054494D4553204D4920),
  (0x120E0, 0x43554E4549464F524D205349474E204741322054494D4553204E554E20),
  (0x120E1, 0x43554E4549464F524D205349474E204741322054494D4553204E554E204F564552204E554E20),
  (0x120E2, 0x43554E4549464F524D205349474E204741322054494D455320504120),
  (0x120E3, 0x43554E4549464F524D205349474E204741322054494D45532053414C20),
  (0x120E4, 0x43554E4549464F524D205349474E204741322054494D45532053415220),
  (0x120E5, 0x43554E4549464F524D205349474E204741322054494D45532053484520),
  (0x120E6, 0x43554E4549464F524D205349474E204741322054494D45532053484520504C55532054555220),
  (0x120E7, 0x43554E4549464F524D205349474E204741322054494D4553205348494420),
  (0x120E8, 0x43554E4549464F524D205349474E204741322054494D45532053554D20),
  (0x120E9, 0x43554E4549464F524D205349474E204741322054494D45532054414B3420),
  (0x120EA, 0x43554E4549464F524D205349474E204741322054494D4553205520),
  (0x120EB, 0x43554E4549464F524D205349474E204741322054494D455320554420),
  (0x120EC, 0x43554E4549464F524D205349474E204741322054494D455320554420504C555320445520),
  (0x120ED, 0x43554E4549464F524D205349474E20474132204F5645522047413220),
  (0x120EE, 0x43554E4549464F524D205349474E204741424120),
  (0x120EF, 0x43554E4549464F524D205349474E20474142412043524F5353494E47204741424120),
  (0x120F0, 0x43554E4549464F524D205349474E2047414420),
  (0x120F1, 0x43554E4549464F524D205349474E20474144204F5645522047414420474152204F5645522047415220),
  (0x120F2, 0x43554E4549464F524D205349474E2047414C20),
  (0x120F3, 0x43554E4549464F524D205349474E2047414C20474144204F5645522047414420474152204F5645522047415220),
  (0x120F4, 0x43554E4549464F524D205349474E2047414C414D20),
  (0x120F5, 0x43554E4549464F524D205349474E2047414D20),
  (0x120F6, 0x43554E4549464F524D205349474E2047414E20),
  (0x120F7, 0x43554E4549464F524D205349474E2047414E3220),
  (0x120F8, 0x43554E4549464F524D205349474E2047414E322054454E5520),
  (0x120F9, 0x43554E4549464F524D205349474E2047414E32204F5645522047414E3220),
  (0x120FA, 0x43554E4549464F524D205349474E2047414E322043524F5353494E472047414E3220),
  (0x120FB, 0x43554E4549464F524D205349474E2047415220),
  (0x120FC, 0x43554E4549464F524D205349474E204741523320),
  (0x120FD, 0x43554E4549464F524D205349474E2047415348414E20),
  (0x120FE, 0x43554E4549464F524D205349474E204745534854494E20),
  (0x120FF, 0x43554E4549464F524D205349474E204745534854494E2054494D4553204B555220),
  (0x12100, 0x43554E4549464F524D205349474E20474920)]
def names_324 : List (Nat × Nat) := [
  (0x12101, 0x43554E4549464F524D205349474E2047492054494D4553204520),
  (0x12102, 0x43554E4549464F524D205349474E2047492054494D4553205520),
  (0x12103, 0x43554E4549464F524D205349474E2047492043524F5353494E4720474920),
  (0x12104, 0x43554E4549464F524D205349474E2047493420),
  (0x12105, 0x43554E4549464F524D205349474E20474934204F5645522047493420),
  (0x12106, 0x43554E4549464F524D205349474E204749342043524F5353494E472047493420),
  (0x12107, 0x43554E4549464F524D205349474E20474944494D20),
  (0x12108, 0x43554E4549464F524D205349474E204749523220),
  (0x12109, 0x43554E4549464F524D205349474E20474952322047554E5520),
  (0x1210A, 0x43554E4549464F524D205349474E204749523320),
  (0x1210B, 0x43554E4549464F524D205349474E20474952332054494D4553204120504C55532049474920),
  (0x1210C, 0x43554E4549464F524D205349474E20474952332054494D45532047414E322054454E5520),
  (0x1210D, 0x43554E4549464F524D205349474E20474952332054494D45532049474920),
  (0x1210E, 0x43554E4549464F524D205349474E20474952332054494D4553204C5520504C55532049474920),
  (0x1210F, 0x43554E4549464F524D205349474E20474952332054494D455320504120),
  (0x12110, 0x43554E4549464F524D205349474E20474953414C20),
  (0x12111, 0x43554E4549464F524D205349474E204749534820),
  (0x12112, 0x43554E4549464F524D205349474E20474953482043524F5353494E47204749534820),
  (0x12113, 0x43554E4549464F524D205349474E20474953482054494D45532042414420),
  (0x12114, 0x43554E4549464F524D205349474E20474953482054494D45532054414B3420),
  (0x12115, 0x43554E4549464F524D205349474E20474953482054454E5520),
  (0x12116, 0x43554E4549464F524D205349474E20475520),
  (0x12117, 0x43554E4549464F524D205349474E2047552043524F5353494E4720475520),
  (0x12118, 0x43554E4549464F524D205349474E2047553220),
  (0x12119, 0x43554E4549464F524D205349474E204755322054494D4553204B414B20),
  (0x1211A, 0x43554E4549464F524D205349474E204755322054494D4553204B414B2054494D4553204947492047554E5520),
  (0x1211B, 0x43554E4549464F524D205349474E204755322054494D4553204E554E20),
  (0x1211C, 0x43554E4549464F524D205349474E204755322054494D45532053414C20504C5553205455473220),
  (0x1211D, 0x43554E4549464F524D205349474E204755322047554E5520),
  (0x1211E, 0x43554E4549464F524D205349474E2047554420),
  (0x1211F, 0x43554E4549464F524D205349474E204755442054494D4553204120504C5553204B555220),
  (0x12120, 0x43554E4549464F524D205349474E204755442054494D4553204B555220),
  (0x12121, 0x43554E4549464F524D205349474E20475544204F56455220475544204C5547414C20),
  (0x12122, 0x43554E4549464F524D205349474E2047554C20),
  (0x12123, 0x43554E4549464F524D205349474E2047554D20),
  (0x12124, 0x43554E4549464F524D205349474E2047554D2054494D45532053484520),
  (0x12125, 0x43554E4549464F524D205349474E2047555220),
  (0x12126, 0x43554E4549464F524D205349474E204755523720),
  (0x12127, 0x43554E4549464F524D205349474E20475552554E20),
  (0x12128, 0x43554E4549464F524D205349474E2047555255534820),
  (0x12129, 0x43554E4549464F524D205349474E20484120),
  (0x1212A, 0x43554E4549464F524D205349474E2048412054454E5520),
  (0x1212B, 0x43554E4549464F524D205349474E2048412047554E5520),
  (0x1212C, 0x43554E4549464F524D205349474E2048414C20),
  (0x1212D, 0x43554E4549464F524D205349474E20484920),
  (0x1212E, 0x43554E4549464F524D205349474E2048492054494D45532041534820),
  (0x1212F, 0x43554E4549464F524D205349474E2048492054494D4553204153483220),
  (0x12130, 0x43554E4549464F524D205349474E2048492054494D45532042414420),
  (0x12131, 0x43554E4549464F524D205349474E2048492054494D4553204449534820),
  (0x12132, 0x43554E4549464F524D205349474E2048492054494D45532047414420),
  (0x12133, 0x43554E4549464F524D205349474E2048492054494D4553204B494E20),
  (0x12134, 0x43554E4549464F524D205349474E2048492054494D4553204E554E20),
  (0x12135, 0x43554E4549464F524D205349474E2048492054494D45532053484520),
  (0x12136, 0x43554E4549464F524D205349474E2048492054494D4553205520),
  (0x12137, 0x43554E4549464F524D205349474E20485520),
  (0x12138, 0x43554E4549464F524D205349474E204855423220),
  (0x12139, 0x43554E4549464F524D205349474E20485542322054494D455320414E20),
  (0x1213A, 0x43554E4549464F524D205349474E20485542322054494D45532048414C20),
  (0x1213B, 0x43554E4549464F524D205349474E20485542322054494D4553204B41534B414C20),
  (0x1213C, 0x43554E4549464F524D205349474E20485542322054494D4553204C49534820),
  (0x1213D, 0x43554E4549464F524D205349474E20485542322054494D455320554420),
  (0x1213E, 0x43554E4549464F524D205349474E2048554C3220),
  (0x1213F, 0x43554E4549464F524D205349474E204920),
  (0x12140, 0x43554E4549464F524D205349474E2049204120)]
def names_325 : List (Nat × Nat) := [
  (0x12141, 0x43554E4549464F524D205349474E20494220),
  (0x12142, 0x43554E4549464F524D205349474E204944494D20),
  (0x12143, 0x43554E4549464F524D205349474E204944494D204F564552204944494D2042555220),
  (0x12144, 0x43554E4549464F524D205349474E204944494D204F564552204944494D205351554152454420),
  (0x12145, 0x43554E4549464F524D205349474E20494720),
  (0x12146, 0x43554E4549464F524D205349474E2049474920),
  (0x12147, 0x43554E4549464F524D205349474E204947492044494220),
  (0x12148, 0x43554E4549464F524D205349474E2049474920524920),
  (0x12149, 0x43554E4549464F524D205349474E20494749204F564552204947492053484952204F5645522053484952205544204F56455220554420),
  (0x1214A, 0x43554E4549464F524D205349474E204947492047554E5520),
  (0x1214B, 0x43554E4549464F524D205349474E20494C20),
  (0x1214C, 0x43554E4549464F524D205349474E20494C2054494D45532047414E322054454E5520),
  (0x1214D, 0x43554E4549464F524D205349474E20494C3220),
  (0x1214E, 0x43554E4549464F524D205349474E20494D20),
  (0x1214F, 0x43554E4549464F524D205349474E20494D2054494D45532054414B3420),
  (0x12150, 0x43554E4549464F524D205349474E20494D2043524F5353494E4720494D20),
  (0x12151, 0x43554E4549464F524D205349474E20494D204F50504F53494E4720494D20),
  (0x12152, 0x43554E4549464F524D205349474E20494D205351554152454420),
  (0x12153, 0x43554E4549464F524D205349474E20494D494E20),
  (0x12154, 0x43554E4549464F524D205349474E20494E20),
  (0x12155, 0x43554E4549464F524D205349474E20495220),
  (0x12156, 0x43554E4549464F524D205349474E2049534820),
  (0x12157, 0x43554E4549464F524D205349474E204B4120),
  (0x12158, 0x43554E4549464F524D205349474E204B412054494D4553204120),
  (0x12159, 0x43554E4549464F524D205349474E204B412054494D455320414420),
  (0x1215A, 0x43554E4549464F524D205349474E204B412054494D455320414420504C5553204B553320),
  (0x1215B, 0x43554E4549464F524D205349474E204B412054494D4553204153483220),
  (0x1215C, 0x43554E4549464F524D205349474E204B412054494D45532042414420),
  (0x1215D, 0x43554E4549464F524D205349474E204B412054494D45532042414C414720),
  (0x1215E, 0x43554E4549464F524D205349474E204B412054494D45532042415220),
  (0x1215F, 0x43554E4549464F524D205349474E204B412054494D455320424920),
  (0x12160, 0x43554E4549464F524D205349474E204B412054494D4553204552494E3220),
  (0x12161, 0x43554E4549464F524D205349474E204B412054494D4553204553483220),
  (0x12162, 0x43554E4549464F524D205349474E204B412054494D455320474120),
  (0x12163, 0x43554E4549464F524D205349474E204B412054494D45532047414C20),
  (0x12164, 0x43554E4549464F524D205349474E204B412054494D45532047414E322054454E5520),
  (0x12165, 0x43554E4549464F524D205349474E204B412054494D45532047415220),
  (0x12166, 0x43554E4549464F524D205349474E204B412054494D45532047415220504C5553205348413320504C5553204120),
  (0x12167, 0x43554E4549464F524D205349474E204B412054494D455320474920),
  (0x12168, 0x43554E4549464F524D205349474E204B412054494D4553204749523220),
  (0x12169, 0x43554E4549464F524D205349474E204B412054494D4553204749534820504C55532053415220),
  (0x1216A, 0x43554E4549464F524D205349474E204B412054494D455320474953482043524F5353494E47204749534820),
  (0x1216B, 0x43554E4549464F524D205349474E204B412054494D455320475520),
  (0x1216C, 0x43554E4549464F524D205349474E204B412054494D4553204755523720),
  (0x1216D, 0x43554E4549464F524D205349474E204B412054494D45532049474920),
  (0x1216E, 0x43554E4549464F524D205349474E204B412054494D455320494D20),
  (0x1216F, 0x43554E4549464F524D205349474E204B412054494D4553204B414B20),
  (0x12170, 0x43554E4549464F524D205349474E204B412054494D4553204B4920),
  (0x12171, 0x43554E4549464F524D205349474E204B412054494D4553204B494420),
  (0x12172, 0x43554E4549464F524D205349474E204B412054494D4553204C4920),
  (0x12173, 0x43554E4549464F524D205349474E204B412054494D4553204C5520),
  (0x12174, 0x43554E4549464F524D205349474E204B412054494D4553204D4520),
  (0x12175, 0x43554E4549464F524D205349474E204B412054494D4553204D4520504C555320445520),
  (0x12176, 0x43554E4549464F524D205349474E204B412054494D4553204D4520504C555320474920),
  (0x12177, 0x43554E4549464F524D205349474E204B412054494D4553204D4520504C555320544520),
  (0x12178, 0x43554E4549464F524D205349474E204B412054494D4553204D4920),
  (0x12179, 0x43554E4549464F524D205349474E204B412054494D4553204D4920504C5553204E554E555A20),
  (0x1217A, 0x43554E4549464F524D205349474E204B412054494D4553204E4520),
  (0x1217B, 0x43554E4549464F524D205349474E204B412054494D4553204E554E20),
  (0x1217C, 0x43554E4549464F524D205349474E204B412054494D455320504920),
  (0x1217D, 0x43554E4549464F524D205349474E204B412054494D455320525520),
  (0x1217E, 0x43554E4549464F524D205349474E204B412054494D455320534120),
  (0x1217F, 0x43554E4549464F524D205349474E204B412054494D45532053415220),
  (0x12180, 0x43554E4549464F524D205349474E204B412054494D45532053484120)]
def names_326 : List (Nat × Nat) := [
  (0x12181, 0x43554E4549464F524D205349474E204B412054494D45532053484520),
  (0x12182, 0x43554E4549464F524D205349474E204B412054494D4553205348494420),
  (0x12183, 0x43554E4549464F524D205349474E204B412054494D45532053485520),
  (0x12184, 0x43554E4549464F524D205349474E204B412054494D45532053494720),
  (0x12185, 0x43554E4549464F524D205349474E204B412054494D455320535548555220),
  (0x12186, 0x43554E4549464F524D205349474E204B412054494D45532054415220),
  (0x12187, 0x43554E4549464F524D205349474E204B412054494D4553205520),
  (0x12188, 0x43554E4549464F524D205349474E204B412054494D455320553220),
  (0x12189, 0x43554E4549464F524D205349474E204B412054494D455320554420),
  (0x1218A, 0x43554E4549464F524D205349474E204B412054494D455320554D554D2054494D455320504120),
  (0x1218B, 0x43554E4549464F524D205349474E204B412054494D45532055534820),
  (0x1218C, 0x43554E4549464F524D205349474E204B412054494D4553205A4920),
  (0x1218D, 0x43554E4549464F524D205349474E204B413220),
  (0x1218E, 0x43554E4549464F524D205349474E204B41322043524F5353494E47204B413220),
  (0x1218F, 0x43554E4549464F524D205349474E204B414220),
  (0x12190, 0x43554E4549464F524D205349474E204B41443220),
  (0x12191, 0x43554E4549464F524D205349474E204B41443320),
  (0x12192, 0x43554E4549464F524D205349474E204B41443420),
  (0x12193, 0x43554E4549464F524D205349474E204B41443520),
  (0x12194, 0x43554E4549464F524D205349474E204B414435204F564552204B41443520),
  (0x12195, 0x43554E4549464F524D205349474E204B414B20),
  (0x12196, 0x43554E4549464F524D205349474E204B414B2054494D4553204947492047554E5520),
  (0x12197, 0x43554E4549464F524D205349474E204B414C20),
  (0x12198, 0x43554E4549464F524D205349474E204B414C2054494D45532042414420),
  (0x12199, 0x43554E4549464F524D205349474E204B414C2043524F5353494E47204B414C20),
  (0x1219A, 0x43554E4549464F524D205349474E204B414D3220),
  (0x1219B, 0x43554E4549464F524D205349474E204B414D3420),
  (0x1219C, 0x43554E4549464F524D205349474E204B41534B414C20),
  (0x1219D, 0x43554E4549464F524D205349474E204B41534B414C204C414741422054494D45532055204F564552204C414741422054494D4553205520),
  (0x1219E, 0x43554E4549464F524D205349474E204B41534B414C204F564552204B41534B414C204C414741422054494D45532055204F564552204C414741422054494D4553205520),
  (0x1219F, 0x43554E4549464F524D205349474E204B4553483220),
  (0x121A0, 0x43554E4549464F524D205349474E204B4920),
  (0x121A1, 0x43554E4549464F524D205349474E204B492054494D45532042414420),
  (0x121A2, 0x43554E4549464F524D205349474E204B492054494D4553205520),
  (0x121A3, 0x43554E4549464F524D205349474E204B492054494D455320554420),
  (0x121A4, 0x43554E4549464F524D205349474E204B494420),
  (0x121A5, 0x43554E4549464F524D205349474E204B494E20),
  (0x121A6, 0x43554E4549464F524D205349474E204B4953414C20),
  (0x121A7, 0x43554E4549464F524D205349474E204B49534820),
  (0x121A8, 0x43554E4549464F524D205349474E204B4953494D3520),
  (0x121A9, 0x43554E4549464F524D205349474E204B4953494D35204F564552204B4953494D3520),
  (0x121AA, 0x43554E4549464F524D205349474E204B5520),
  (0x121AB, 0x43554E4549464F524D205349474E204B55204F5645522048492054494D45532041534832204B55204F5645522048492054494D4553204153483220),
  (0x121AC, 0x43554E4549464F524D205349474E204B553320),
  (0x121AD, 0x43554E4549464F524D205349474E204B553420),
  (0x121AE, 0x43554E4549464F524D205349474E204B55342056415249414E5420464F524D20),
  (0x121AF, 0x43554E4549464F524D205349474E204B553720),
  (0x121B0, 0x43554E4549464F524D205349474E204B554C20),
  (0x121B1, 0x43554E4549464F524D205349474E204B554C2047554E5520),
  (0x121B2, 0x43554E4549464F524D205349474E204B554E20),
  (0x121B3, 0x43554E4549464F524D205349474E204B555220),
  (0x121B4, 0x43554E4549464F524D205349474E204B5552204F50504F53494E47204B555220),
  (0x121B5, 0x43554E4549464F524D205349474E204B555348553220),
  (0x121B6, 0x43554E4549464F524D205349474E204B575533313820),
  (0x121B7, 0x43554E4549464F524D205349474E204C4120),
  (0x121B8, 0x43554E4549464F524D205349474E204C4147414220),
  (0x121B9, 0x43554E4549464F524D205349474E204C414741422054494D4553204120),
  (0x121BA, 0x43554E4549464F524D205349474E204C414741422054494D4553204120504C555320444120504C555320484120),
  (0x121BB, 0x43554E4549464F524D205349474E204C414741422054494D4553204120504C55532047415220),
  (0x121BC, 0x43554E4549464F524D205349474E204C414741422054494D4553204120504C5553204C414C20),
  (0x121BD, 0x43554E4549464F524D205349474E204C414741422054494D455320414C20),
  (0x121BE, 0x43554E4549464F524D205349474E204C414741422054494D455320414E20),
  (0x121BF, 0x43554E4549464F524D205349474E204C414741422054494D455320415348205A4944412054454E5520),
  (0x121C0, 0x43554E4549464F524D205349474E204C414741422054494D45532042414420)]
def names_327 : List (Nat × Nat) := [
  (0x121C1, 0x43554E4549464F524D205349474E204C414741422054494D455320424920),
  (0x121C2, 0x43554E4549464F524D205349474E204C414741422054494D45532044415220),
  (0x121C3, 0x43554E4549464F524D205349474E204C414741422054494D455320454E20),
  (0x121C4, 0x43554E4549464F524D205349474E204C414741422054494D455320474120),
  (0x121C5, 0x43554E4549464F524D205349474E204C414741422054494D45532047415220),
  (0x121C6, 0x43554E4549464F524D205349474E204C414741422054494D45532047554420),
  (0x121C7, 0x43554E4549464F524D205349474E204C414741422054494D45532047554420504C55532047554420),
  (0x121C8, 0x43554E4549464F524D205349474E204C414741422054494D455320484120),
  (0x121C9, 0x43554E4549464F524D205349474E204C414741422054494D45532048414C20),
  (0x121CA, 0x43554E4549464F524D205349474E204C414741422054494D45532048492054494D4553204E554E20),
  (0x121CB, 0x43554E4549464F524D205349474E204C414741422054494D4553204947492047554E5520),
  (0x121CC, 0x43554E4549464F524D205349474E204C414741422054494D455320494D20),
  (0x121CD, 0x43554E4549464F524D205349474E204C414741422054494D455320494D20504C555320484120),
  (0x121CE, 0x43554E4549464F524D205349474E204C414741422054494D455320494D20504C5553204C5520),
  (0x121CF, 0x43554E4549464F524D205349474E204C414741422054494D4553204B4920),
  (0x121D0, 0x43554E4549464F524D205349474E204C414741422054494D4553204B494E20),
  (0x121D1, 0x43554E4549464F524D205349474E204C414741422054494D4553204B553320),
  (0x121D2, 0x43554E4549464F524D205349474E204C414741422054494D4553204B554C20),
  (0x121D3, 0x43554E4549464F524D205349474E204C414741422054494D4553204B554C20504C555320484920504C5553204120),
  (0x121D4, 0x43554E4549464F524D205349474E204C414741422054494D4553204C4147414220),
  (0x121D5, 0x43554E4549464F524D205349474E204C414741422054494D4553204C49534820),
  (0x121D6, 0x43554E4549464F524D205349474E204C414741422054494D4553204C5520),
  (0x121D7, 0x43554E4549464F524D205349474E204C414741422054494D4553204C554C20),
  (0x121D8, 0x43554E4549464F524D205349474E204C414741422054494D4553204D4520),
  (0x121D9, 0x43554E4549464F524D205349474E204C414741422054494D4553204D4520504C555320454E20),
  (0x121DA, 0x43554E4549464F524D205349474E204C414741422054494D4553204D55534820),
  (0x121DB, 0x43554E4549464F524D205349474E204C414741422054494D4553204E4520),
  (0x121DC, 0x43554E4549464F524D205349474E204C414741422054494D45532053484520504C55532053554D20),
  (0x121DD, 0x43554E4549464F524D205349474E204C414741422054494D455320534849544120504C5553204749534820504C5553204552494E3220),
  (0x121DE, 0x43554E4549464F524D205349474E204C414741422054494D455320534849544120504C555320474953482054454E5520),
  (0x121DF, 0x43554E4549464F524D205349474E204C414741422054494D4553205348553220),
  (0x121E0, 0x43554E4549464F524D205349474E204C414741422054494D4553205348553220504C5553205348553220),
  (0x121E1, 0x43554E4549464F524D205349474E204C414741422054494D45532053554D20),
  (0x121E2, 0x43554E4549464F524D205349474E204C414741422054494D45532054414720),
  (0x121E3, 0x43554E4549464F524D205349474E204C414741422054494D45532054414B3420),
  (0x121E4, 0x43554E4549464F524D205349474E204C414741422054494D455320544520504C5553204120504C555320535520504C5553204E4120),
  (0x121E5, 0x43554E4549464F524D205349474E204C414741422054494D4553205520),
  (0x121E6, 0x43554E4549464F524D205349474E204C414741422054494D4553205520504C5553204120),
  (0x121E7, 0x43554E4549464F524D205349474E204C414741422054494D4553205520504C5553205520504C5553205520),
  (0x121E8, 0x43554E4549464F524D205349474E204C414741422054494D455320553220504C55532041534820),
  (0x121E9, 0x43554E4549464F524D205349474E204C414741422054494D455320554420),
  (0x121EA, 0x43554E4549464F524D205349474E204C414741422054494D45532055534820),
  (0x121EB, 0x43554E4549464F524D205349474E204C41474142205351554152454420),
  (0x121EC, 0x43554E4549464F524D205349474E204C4147415220),
  (0x121ED, 0x43554E4549464F524D205349474E204C414741522054494D45532053484520),
  (0x121EE, 0x43554E4549464F524D205349474E204C414741522054494D45532053484520504C55532053554D20),
  (0x121EF, 0x43554E4549464F524D205349474E204C414741522047554E5520),
  (0x121F0, 0x43554E4549464F524D205349474E204C414741522047554E55204F564552204C414741522047554E552053484520),
  (0x121F1, 0x43554E4549464F524D205349474E204C414853485520),
  (0x121F2, 0x43554E4549464F524D205349474E204C414C20),
  (0x121F3, 0x43554E4549464F524D205349474E204C414C2054494D4553204C414C20),
  (0x121F4, 0x43554E4549464F524D205349474E204C414D20),
  (0x121F5, 0x43554E4549464F524D205349474E204C414D2054494D4553204B555220),
  (0x121F6, 0x43554E4549464F524D205349474E204C414D2054494D4553204B555220504C555320525520),
  (0x121F7, 0x43554E4549464F524D205349474E204C4920),
  (0x121F8, 0x43554E4549464F524D205349474E204C494C20),
  (0x121F9, 0x43554E4549464F524D205349474E204C494D4D553220),
  (0x121FA, 0x43554E4549464F524D205349474E204C49534820),
  (0x121FB, 0x43554E4549464F524D205349474E204C5520),
  (0x121FC, 0x43554E4549464F524D205349474E204C552054494D45532042414420),
  (0x121FD, 0x43554E4549464F524D205349474E204C553220),
  (0x121FE, 0x43554E4549464F524D205349474E204C55322054494D455320414C20),
  (0x121FF, 0x43554E4549464F524D205349474E204C55322054494D45532042414420),
  (0x12200, 0x43554E4549464F524D205349474E204C55322054494D4553204553483220)]
def names_328 : List (Nat × Nat) := [
  (0x12201, 0x43554E4549464F524D205349474E204C55322054494D455320455348322054454E5520),
  (0x12202, 0x43554E4549464F524D205349474E204C55322054494D45532047414E322054454E5520),
  (0x12203, 0x43554E4549464F524D205349474E204C55322054494D45532048492054494D45532042414420),
  (0x12204, 0x43554E4549464F524D205349474E204C55322054494D455320494D20),
  (0x12205, 0x43554E4549464F524D205349474E204C55322054494D4553204B41443220),
  (0x12206, 0x43554E4549464F524D205349474E204C55322054494D4553204B41443320),
  (0x12207, 0x43554E4549464F524D205349474E204C55322054494D4553204B41443320504C55532041534820),
  (0x12208, 0x43554E4549464F524D205349474E204C55322054494D4553204B4920),
  (0x12209, 0x43554E4549464F524D205349474E204C55322054494D4553204C4120504C55532041534820),
  (0x1220A, 0x43554E4549464F524D205349474E204C55322054494D4553204C4147414220),
  (0x1220B, 0x43554E4549464F524D205349474E204C55322054494D4553204D4520504C555320454E20),
  (0x1220C, 0x43554E4549464F524D205349474E204C55322054494D4553204E4520),
  (0x1220D, 0x43554E4549464F524D205349474E204C55322054494D4553204E5520),
  (0x1220E, 0x43554E4549464F524D205349474E204C55322054494D455320534920504C55532041534820),
  (0x1220F, 0x43554E4549464F524D205349474E204C55322054494D45532053494B3220504C555320425520),
  (0x12210, 0x43554E4549464F524D205349474E204C55322054494D4553205455473220),
  (0x12211, 0x43554E4549464F524D205349474E204C55322054454E5520),
  (0x12212, 0x43554E4549464F524D205349474E204C55322043524F5353494E47204C553220),
  (0x12213, 0x43554E4549464F524D205349474E204C5532204F50504F53494E47204C553220),
  (0x12214, 0x43554E4549464F524D205349474E204C5532205351554152454420),
  (0x12215, 0x43554E4549464F524D205349474E204C5532205348455348494720),
  (0x12216, 0x43554E4549464F524D205349474E204C553320),
  (0x12217, 0x43554E4549464F524D205349474E204C5547414C20),
  (0x12218, 0x43554E4549464F524D205349474E204C5547414C204F564552204C5547414C20),
  (0x12219, 0x43554E4549464F524D205349474E204C5547414C204F50504F53494E47204C5547414C20),
  (0x1221A, 0x43554E4549464F524D205349474E204C5547414C205348455348494720),
  (0x1221B, 0x43554E4549464F524D205349474E204C554820),
  (0x1221C, 0x43554E4549464F524D205349474E204C554C20),
  (0x1221D, 0x43554E4549464F524D205349474E204C554D20),
  (0x1221E, 0x43554E4549464F524D205349474E204C554D204F564552204C554D20),
  (0x1221F, 0x43554E4549464F524D205349474E204C554D204F564552204C554D20474152204F5645522047415220),
  (0x12220, 0x43554E4549464F524D205349474E204D4120),
  (0x12221, 0x43554E4549464F524D205349474E204D412054494D45532054414B3420),
  (0x12222, 0x43554E4549464F524D205349474E204D412047554E5520),
  (0x12223, 0x43554E4549464F524D205349474E204D413220),
  (0x12224, 0x43554E4549464F524D205349474E204D414820),
  (0x12225, 0x43554E4549464F524D205349474E204D415220),
  (0x12226, 0x43554E4549464F524D205349474E204D41534820),
  (0x12227, 0x43554E4549464F524D205349474E204D4153483220),
  (0x12228, 0x43554E4549464F524D205349474E204D4520),
  (0x12229, 0x43554E4549464F524D205349474E204D455320),
  (0x1222A, 0x43554E4549464F524D205349474E204D4920),
  (0x1222B, 0x43554E4549464F524D205349474E204D494E20),
  (0x1222C, 0x43554E4549464F524D205349474E204D5520),
  (0x1222D, 0x43554E4549464F524D205349474E204D55204F564552204D5520),
  (0x1222E, 0x43554E4549464F524D205349474E204D554720),
  (0x1222F, 0x43554E4549464F524D205349474E204D55472047554E5520),
  (0x12230, 0x43554E4549464F524D205349474E204D554E53554220),
  (0x12231, 0x43554E4549464F524D205349474E204D555247553220),
  (0x12232, 0x43554E4549464F524D205349474E204D55534820),
  (0x12233, 0x43554E4549464F524D205349474E204D5553482054494D4553204120),
  (0x12234, 0x43554E4549464F524D205349474E204D5553482054494D4553204B555220),
  (0x12235, 0x43554E4549464F524D205349474E204D5553482054494D4553205A4120),
  (0x12236, 0x43554E4549464F524D205349474E204D555348204F564552204D55534820),
  (0x12237, 0x43554E4549464F524D205349474E204D555348204F564552204D5553482054494D4553204120504C5553204E4120),
  (0x12238, 0x43554E4549464F524D205349474E204D5553482043524F5353494E47204D55534820),
  (0x12239, 0x43554E4549464F524D205349474E204D5553483320),
  (0x1223A, 0x43554E4549464F524D205349474E204D555348332054494D4553204120),
  (0x1223B, 0x43554E4549464F524D205349474E204D555348332054494D4553204120504C555320444920),
  (0x1223C, 0x43554E4549464F524D205349474E204D555348332054494D455320444920),
  (0x1223D, 0x43554E4549464F524D205349474E204D555348332047554E5520),
  (0x1223E, 0x43554E4549464F524D205349474E204E4120),
  (0x1223F, 0x43554E4549464F524D205349474E204E413220),
  (0x12240, 0x43554E4549464F524D205349474E204E41474120)]
def names_329 : List (Nat × Nat) := [
  (0x12241, 0x43554E4549464F524D205349474E204E41474120494E56455254454420),
  (0x12242, 0x43554E4549464F524D205349474E204E4147412054494D4553205348552054454E5520),
  (0x12243, 0x43554E4549464F524D205349474E204E414741204F50504F53494E47204E41474120),
  (0x12244, 0x43554E4549464F524D205349474E204E4147415220),
  (0x12245, 0x43554E4549464F524D205349474E204E414D204E5554494C4C5520),
  (0x12246, 0x43554E4549464F524D205349474E204E414D20),
  (0x12247, 0x43554E4549464F524D205349474E204E414D3220),
  (0x12248, 0x43554E4549464F524D205349474E204E4520),
  (0x12249, 0x43554E4549464F524D205349474E204E452054494D4553204120),
  (0x1224A, 0x43554E4549464F524D205349474E204E452054494D455320554420),
  (0x1224B, 0x43554E4549464F524D205349474E204E45205348455348494720),
  (0x1224C, 0x43554E4549464F524D205349474E204E4920),
  (0x1224D, 0x43554E4549464F524D205349474E204E492054494D4553204520),
  (0x1224E, 0x43554E4549464F524D205349474E204E493220),
  (0x1224F, 0x43554E4549464F524D205349474E204E494D20),
  (0x12250, 0x43554E4549464F524D205349474E204E494D2054494D45532047414E322054454E5520),
  (0x12251, 0x43554E4549464F524D205349474E204E494D2054494D45532047415220504C55532047414E322054454E5520),
  (0x12252, 0x43554E4549464F524D205349474E204E494E44413220),
  (0x12253, 0x43554E4549464F524D205349474E204E494E4441322054494D455320414E20),
  (0x12254, 0x43554E4549464F524D205349474E204E494E4441322054494D45532041534820),
  (0x12255, 0x43554E4549464F524D205349474E204E494E4441322054494D45532041534820504C55532041534820),
  (0x12256, 0x43554E4549464F524D205349474E204E494E4441322054494D45532047554420),
  (0x12257, 0x43554E4549464F524D205349474E204E494E4441322054494D4553204D4520504C55532047414E322054454E5520),
  (0x12258, 0x43554E4549464F524D205349474E204E494E4441322054494D4553204E4520),
  (0x12259, 0x43554E4549464F524D205349474E204E494E4441322054494D4553204E554E20),
  (0x1225A, 0x43554E4549464F524D205349474E204E494E4441322054494D45532053484520),
  (0x1225B, 0x43554E4549464F524D205349474E204E494E4441322054494D45532053484520504C5553204120414E20),
  (0x1225C, 0x43554E4549464F524D205349474E204E494E4441322054494D45532053484520504C55532041534820),
  (0x1225D, 0x43554E4549464F524D205349474E204E494E4441322054494D45532053484520504C55532041534820504C55532041534820),
  (0x1225E, 0x43554E4549464F524D205349474E204E494E4441322054494D455320553220504C55532041534820),
  (0x1225F, 0x43554E4549464F524D205349474E204E494E4441322054494D45532055534820),
  (0x12260, 0x43554E4549464F524D205349474E204E4953414720),
  (0x12261, 0x43554E4549464F524D205349474E204E5520),
  (0x12262, 0x43554E4549464F524D205349474E204E55313120),
  (0x12263, 0x43554E4549464F524D205349474E204E554E20),
  (0x12264, 0x43554E4549464F524D205349474E204E554E204C414741522054494D45532047415220),
  (0x12265, 0x43554E4549464F524D205349474E204E554E204C414741522054494D4553204D41534820),
  (0x12266, 0x43554E4549464F524D205349474E204E554E204C414741522054494D45532053414C20),
  (0x12267, 0x43554E4549464F524D205349474E204E554E204C414741522054494D45532053414C204F564552204E554E204C414741522054494D45532053414C20),
  (0x12268, 0x43554E4549464F524D205349474E204E554E204C414741522054494D45532055534820),
  (0x12269, 0x43554E4549464F524D205349474E204E554E2054454E5520),
  (0x1226A, 0x43554E4549464F524D205349474E204E554E204F564552204E554E20),
  (0x1226B, 0x43554E4549464F524D205349474E204E554E2043524F5353494E47204E554E20),
  (0x1226C, 0x43554E4549464F524D205349474E204E554E2043524F5353494E47204E554E204C41474152204F564552204C4147415220),
  (0x1226D, 0x43554E4549464F524D205349474E204E554E555A20),
  (0x1226E, 0x43554E4549464F524D205349474E204E554E555A204142322054494D45532041534847414220),
  (0x1226F, 0x43554E4549464F524D205349474E204E554E555A204142322054494D455320424920),
  (0x12270, 0x43554E4549464F524D205349474E204E554E555A204142322054494D45532044554720),
  (0x12271, 0x43554E4549464F524D205349474E204E554E555A204142322054494D45532047554420),
  (0x12272, 0x43554E4549464F524D205349474E204E554E555A204142322054494D4553204947492047554E5520),
  (0x12273, 0x43554E4549464F524D205349474E204E554E555A204142322054494D4553204B41443320),
  (0x12274, 0x43554E4549464F524D205349474E204E554E555A204142322054494D4553204C4120),
  (0x12275, 0x43554E4549464F524D205349474E204E554E555A204142322054494D4553204E4520),
  (0x12276, 0x43554E4549464F524D205349474E204E554E555A204142322054494D45532053494C413320),
  (0x12277, 0x43554E4549464F524D205349474E204E554E555A204142322054494D455320553220),
  (0x12278, 0x43554E4549464F524D205349474E204E554E555A204B4953494D352054494D455320424920),
  (0x12279, 0x43554E4549464F524D205349474E204E554E555A204B4953494D352054494D4553204249205520),
  (0x1227A, 0x43554E4549464F524D205349474E20504120),
  (0x1227B, 0x43554E4549464F524D205349474E2050414420),
  (0x1227C, 0x43554E4549464F524D205349474E2050414E20),
  (0x1227D, 0x43554E4549464F524D205349474E2050415020),
  (0x1227E, 0x43554E4549464F524D205349474E20504553483220),
  (0x1227F, 0x43554E4549464F524D205349474E20504920),
  (0x12280, 0x43554E4549464F524D205349474E2050492054494D4553204120)]
def names_330 : List (Nat × Nat) := [
  (0x12281, 0x43554E4549464F524D205349474E2050492054494D455320414220),
  (0x12282, 0x43554E4549464F524D205349474E2050492054494D455320424920),
  (0x12283, 0x43554E4549464F524D205349474E2050492054494D455320425520),
  (0x12284, 0x43554E4549464F524D205349474E2050492054494D4553204520),
  (0x12285, 0x43554E4549464F524D205349474E2050492054494D4553204920),
  (0x12286, 0x43554E4549464F524D205349474E2050492054494D455320494220),
  (0x12287, 0x43554E4549464F524D205349474E2050492054494D4553205520),
  (0x12288, 0x43554E4549464F524D205349474E2050492054494D455320553220),
  (0x12289, 0x43554E4549464F524D205349474E2050492043524F5353494E4720504920),
  (0x1228A, 0x43554E4549464F524D205349474E20504952494720),
  (0x1228B, 0x43554E4549464F524D205349474E2050495249472054494D4553204B414C20),
  (0x1228C, 0x43554E4549464F524D205349474E2050495249472054494D455320554420),
  (0x1228D, 0x43554E4549464F524D205349474E2050495249472054494D4553205A4120),
  (0x1228E, 0x43554E4549464F524D205349474E205049524947204F50504F53494E4720504952494720),
  (0x1228F, 0x43554E4549464F524D205349474E20524120),
  (0x12290, 0x43554E4549464F524D205349474E2052414220),
  (0x12291, 0x43554E4549464F524D205349474E20524920),
  (0x12292, 0x43554E4549464F524D205349474E20525520),
  (0x12293, 0x43554E4549464F524D205349474E20534120),
  (0x12294, 0x43554E4549464F524D205349474E20534147204E5554494C4C5520),
  (0x12295, 0x43554E4549464F524D205349474E2053414720),
  (0x12296, 0x43554E4549464F524D205349474E205341472054494D4553204120),
  (0x12297, 0x43554E4549464F524D205349474E205341472054494D455320445520),
  (0x12298, 0x43554E4549464F524D205349474E205341472054494D45532044554220),
  (0x12299, 0x43554E4549464F524D205349474E205341472054494D455320484120),
  (0x1229A, 0x43554E4549464F524D205349474E205341472054494D4553204B414B20),
  (0x1229B, 0x43554E4549464F524D205349474E205341472054494D4553204B555220),
  (0x1229C, 0x43554E4549464F524D205349474E205341472054494D4553204C554D20),
  (0x1229D, 0x43554E4549464F524D205349474E205341472054494D4553204D4920),
  (0x1229E, 0x43554E4549464F524D205349474E205341472054494D4553204E554E20),
  (0x1229F, 0x43554E4549464F524D205349474E205341472054494D45532053414C20),
  (0x122A0, 0x43554E4549464F524D205349474E205341472054494D4553205348494420),
  (0x122A1, 0x43554E4549464F524D205349474E205341472054494D45532054414220),
  (0x122A2, 0x43554E4549464F524D205349474E205341472054494D455320553220),
  (0x122A3, 0x43554E4549464F524D205349474E205341472054494D455320554220),
  (0x122A4, 0x43554E4549464F524D205349474E205341472054494D455320554D20),
  (0x122A5, 0x43554E4549464F524D205349474E205341472054494D455320555220),
  (0x122A6, 0x43554E4549464F524D205349474E205341472054494D45532055534820),
  (0x122A7, 0x43554E4549464F524D205349474E20534147204F5645522053414720),
  (0x122A8, 0x43554E4549464F524D205349474E205341472047554E5520),
  (0x122A9, 0x43554E4549464F524D205349474E2053414C20),
  (0x122AA, 0x43554E4549464F524D205349474E2053414C204C414741422054494D4553204153483220),
  (0x122AB, 0x43554E4549464F524D205349474E2053414E47413220),
  (0x122AC, 0x43554E4549464F524D205349474E2053415220),
  (0x122AD, 0x43554E4549464F524D205349474E2053484120),
  (0x122AE, 0x43554E4549464F524D205349474E205348413320),
  (0x122AF, 0x43554E4549464F524D205349474E20534841332054494D4553204120),
  (0x122B0, 0x43554E4549464F524D205349474E20534841332054494D45532042414420),
  (0x122B1, 0x43554E4549464F524D205349474E20534841332054494D4553204749534820),
  (0x122B2, 0x43554E4549464F524D205349474E20534841332054494D4553204E4520),
  (0x122B3, 0x43554E4549464F524D205349474E20534841332054494D4553205348553220),
  (0x122B4, 0x43554E4549464F524D205349474E20534841332054494D45532054555220),
  (0x122B5, 0x43554E4549464F524D205349474E20534841332054494D4553205520),
  (0x122B6, 0x43554E4549464F524D205349474E20534841332054494D4553205520504C5553204120),
  (0x122B7, 0x43554E4549464F524D205349474E205348413620),
  (0x122B8, 0x43554E4549464F524D205349474E20534841423620),
  (0x122B9, 0x43554E4549464F524D205349474E20534841523220),
  (0x122BA, 0x43554E4549464F524D205349474E2053484520),
  (0x122BB, 0x43554E4549464F524D205349474E2053484520485520),
  (0x122BC, 0x43554E4549464F524D205349474E20534845204F5645522053484520474144204F5645522047414420474152204F5645522047415220),
  (0x122BD, 0x43554E4549464F524D205349474E20534845204F5645522053484520544142204F5645522054414220474152204F5645522047415220),
  (0x122BE, 0x43554E4549464F524D205349474E20534845473920),
  (0x122BF, 0x43554E4549464F524D205349474E205348454E20),
  (0x122C0, 0x43554E4549464F524D205349474E20534845534820)]
def names_331 : List (Nat × Nat) := [
  (0x122C1, 0x43554E4549464F524D205349474E2053484553483220),
  (0x122C2, 0x43554E4549464F524D205349474E2053484553484C414D20),
  (0x122C3, 0x43554E4549464F524D205349474E205348494420),
  (0x122C4, 0x43554E4549464F524D205349474E20534849442054494D4553204120),
  (0x122C5, 0x43554E4549464F524D205349474E20534849442054494D455320494D20),
  (0x122C6, 0x43554E4549464F524D205349474E205348494D20),
  (0x122C7, 0x43554E4549464F524D205349474E205348494D2054494D4553204120),
  (0x122C8, 0x43554E4549464F524D205349474E205348494D2054494D45532042414C20),
  (0x122C9, 0x43554E4549464F524D205349474E205348494D2054494D45532042554C554720),
  (0x122CA, 0x43554E4549464F524D205349474E205348494D2054494D45532044494E20),
  (0x122CB, 0x43554E4549464F524D205349474E205348494D2054494D45532047415220),
  (0x122CC, 0x43554E4549464F524D205349474E205348494D2054494D45532049474920),
  (0x122CD, 0x43554E4549464F524D205349474E205348494D2054494D4553204947492047554E5520),
  (0x122CE, 0x43554E4549464F524D205349474E205348494D2054494D4553204B555348553220),
  (0x122CF, 0x43554E4549464F524D205349474E205348494D2054494D4553204C554C20),
  (0x122D0, 0x43554E4549464F524D205349474E205348494D2054494D4553204D554720),
  (0x122D1, 0x43554E4549464F524D205349474E205348494D2054494D45532053414C20),
  (0x122D2, 0x43554E4549464F524D205349474E205348494E494720),
  (0x122D3, 0x43554E4549464F524D205349474E205348495220),
  (0x122D4, 0x43554E4549464F524D205349474E20534849522054454E5520),
  (0x122D5, 0x43554E4549464F524D205349474E2053484952204F564552205348495220425552204F5645522042555220),
  (0x122D6, 0x43554E4549464F524D205349474E20534849544120),
  (0x122D7, 0x43554E4549464F524D205349474E2053485520),
  (0x122D8, 0x43554E4549464F524D205349474E20534855204F56455220494E5645525445442053485520),
  (0x122D9, 0x43554E4549464F524D205349474E205348553220),
  (0x122DA, 0x43554E4549464F524D205349474E2053485542555220),
  (0x122DB, 0x43554E4549464F524D205349474E20534920),
  (0x122DC, 0x43554E4549464F524D205349474E2053492047554E5520),
  (0x122DD, 0x43554E4549464F524D205349474E2053494720),
  (0x122DE, 0x43554E4549464F524D205349474E205349473420),
  (0x122DF, 0x43554E4549464F524D205349474E2053494734204F5645522053494734205348553220),
  (0x122E0, 0x43554E4549464F524D205349474E2053494B3220),
  (0x122E1, 0x43554E4549464F524D205349474E2053494C413320),
  (0x122E2, 0x43554E4549464F524D205349474E20535520),
  (0x122E3, 0x43554E4549464F524D205349474E205355204F56455220535520),
  (0x122E4, 0x43554E4549464F524D205349474E2053554420),
  (0x122E5, 0x43554E4549464F524D205349474E205355443220),
  (0x122E6, 0x43554E4549464F524D205349474E20535548555220),
  (0x122E7, 0x43554E4549464F524D205349474E2053554D20),
  (0x122E8, 0x43554E4549464F524D205349474E2053554D41534820),
  (0x122E9, 0x43554E4549464F524D205349474E2053555220),
  (0x122EA, 0x43554E4549464F524D205349474E205355523920),
  (0x122EB, 0x43554E4549464F524D205349474E20544120),
  (0x122EC, 0x43554E4549464F524D205349474E20544120415354455249534B20),
  (0x122ED, 0x43554E4549464F524D205349474E2054412054494D455320484920),
  (0x122EE, 0x43554E4549464F524D205349474E2054412054494D4553204D4920),
  (0x122EF, 0x43554E4549464F524D205349474E2054412047554E5520),
  (0x122F0, 0x43554E4549464F524D205349474E2054414220),
  (0x122F1, 0x43554E4549464F524D205349474E20544142204F56455220544142204E49204F564552204E492044495348204F564552204449534820),
  (0x122F2, 0x43554E4549464F524D205349474E20544142205351554152454420),
  (0x122F3, 0x43554E4549464F524D205349474E2054414720),
  (0x122F4, 0x43554E4549464F524D205349474E205441472054494D455320424920),
  (0x122F5, 0x43554E4549464F524D205349474E205441472054494D45532047554420),
  (0x122F6, 0x43554E4549464F524D205349474E205441472054494D45532053484520),
  (0x122F7, 0x43554E4549464F524D205349474E205441472054494D45532053485520),
  (0x122F8, 0x43554E4549464F524D205349474E205441472054494D4553205455473220),
  (0x122F9, 0x43554E4549464F524D205349474E205441472054494D455320554420),
  (0x122FA, 0x43554E4549464F524D205349474E2054414B3420),
  (0x122FB, 0x43554E4549464F524D205349474E2054415220),
  (0x122FC, 0x43554E4549464F524D205349474E20544520),
  (0x122FD, 0x43554E4549464F524D205349474E2054452047554E5520),
  (0x122FE, 0x43554E4549464F524D205349474E20544920),
  (0x122FF, 0x43554E4549464F524D205349474E2054492054454E5520),
  (0x12300, 0x43554E4549464F524D205349474E2054494C20)]
def names_332 : List (Nat × Nat) := [
  (0x12301, 0x43554E4549464F524D205349474E2054495220),
  (0x12302, 0x43554E4549464F524D205349474E205449522054494D45532054414B3420),
  (0x12303, 0x43554E4549464F524D205349474E20544952204F5645522054495220),
  (0x12304, 0x43554E4549464F524D205349474E20544952204F5645522054495220474144204F5645522047414420474152204F5645522047415220),
  (0x12305, 0x43554E4549464F524D205349474E20545520),
  (0x12306, 0x43554E4549464F524D205349474E205455473220),
  (0x12307, 0x43554E4549464F524D205349474E2054554B20),
  (0x12308, 0x43554E4549464F524D205349474E2054554D20),
  (0x12309, 0x43554E4549464F524D205349474E2054555220),
  (0x1230A, 0x43554E4549464F524D205349474E20545552204F56455220545552205A41204F564552205A4120),
  (0x1230B, 0x43554E4549464F524D205349474E205520),
  (0x1230C, 0x43554E4549464F524D205349474E20552047554420),
  (0x1230D, 0x43554E4549464F524D205349474E20552055205520),
  (0x1230E, 0x43554E4549464F524D205349474E2055204F5645522055205041204F56455220504120474152204F5645522047415220),
  (0x1230F, 0x43554E4549464F524D205349474E2055204F564552205520535552204F5645522053555220),
  (0x12310, 0x43554E4549464F524D205349474E2055204F56455220552055205245564552534544204F564552205520524556455253454420),
  (0x12311, 0x43554E4549464F524D205349474E20553220),
  (0x12312, 0x43554E4549464F524D205349474E20554220),
  (0x12313, 0x43554E4549464F524D205349474E20554420),
  (0x12314, 0x43554E4549464F524D205349474E205544204B555348553220),
  (0x12315, 0x43554E4549464F524D205349474E2055442054494D45532042414420),
  (0x12316, 0x43554E4549464F524D205349474E2055442054494D4553204D4920),
  (0x12317, 0x43554E4549464F524D205349474E2055442054494D4553205520504C5553205520504C5553205520),
  (0x12318, 0x43554E4549464F524D205349474E2055442054494D4553205520504C5553205520504C555320552047554E5520),
  (0x12319, 0x43554E4549464F524D205349474E2055442047554E5520),
  (0x1231A, 0x43554E4549464F524D205349474E205544205348455348494720),
  (0x1231B, 0x43554E4549464F524D205349474E20554420534845534849472054494D45532042414420),
  (0x1231C, 0x43554E4549464F524D205349474E205544554720),
  (0x1231D, 0x43554E4549464F524D205349474E20554D20),
  (0x1231E, 0x43554E4549464F524D205349474E20554D2054494D4553204C4147414220),
  (0x1231F, 0x43554E4549464F524D205349474E20554D2054494D4553204D4520504C555320444120),
  (0x12320, 0x43554E4549464F524D205349474E20554D2054494D4553205348413320),
  (0x12321, 0x43554E4549464F524D205349474E20554D2054494D4553205520),
  (0x12322, 0x43554E4549464F524D205349474E20554D42494E20),
  (0x12323, 0x43554E4549464F524D205349474E20554D554D20),
  (0x12324, 0x43554E4549464F524D205349474E20554D554D2054494D4553204B41534B414C20),
  (0x12325, 0x43554E4549464F524D205349474E20554D554D2054494D455320504120),
  (0x12326, 0x43554E4549464F524D205349474E20554E20),
  (0x12327, 0x43554E4549464F524D205349474E20554E2047554E5520),
  (0x12328, 0x43554E4549464F524D205349474E20555220),
  (0x12329, 0x43554E4549464F524D205349474E2055522043524F5353494E4720555220),
  (0x1232A, 0x43554E4549464F524D205349474E205552205348455348494720),
  (0x1232B, 0x43554E4549464F524D205349474E2055523220),
  (0x1232C, 0x43554E4549464F524D205349474E205552322054494D4553204120504C555320484120),
  (0x1232D, 0x43554E4549464F524D205349474E205552322054494D4553204120504C5553204E4120),
  (0x1232E, 0x43554E4549464F524D205349474E205552322054494D455320414C20),
  (0x1232F, 0x43554E4549464F524D205349474E205552322054494D455320484120),
  (0x12330, 0x43554E4549464F524D205349474E205552322054494D4553204E554E20),
  (0x12331, 0x43554E4549464F524D205349474E205552322054494D455320553220),
  (0x12332, 0x43554E4549464F524D205349474E205552322054494D455320553220504C55532041534820),
  (0x12333, 0x43554E4549464F524D205349474E205552322054494D455320553220504C555320424920),
  (0x12334, 0x43554E4549464F524D205349474E2055523420),
  (0x12335, 0x43554E4549464F524D205349474E2055524920),
  (0x12336, 0x43554E4549464F524D205349474E205552493320),
  (0x12337, 0x43554E4549464F524D205349474E2055525520),
  (0x12338, 0x43554E4549464F524D205349474E205552552054494D4553204120),
  (0x12339, 0x43554E4549464F524D205349474E205552552054494D45532041534847414220),
  (0x1233A, 0x43554E4549464F524D205349474E205552552054494D45532042415220),
  (0x1233B, 0x43554E4549464F524D205349474E205552552054494D45532044554E20),
  (0x1233C, 0x43554E4549464F524D205349474E205552552054494D455320474120),
  (0x1233D, 0x43554E4549464F524D205349474E205552552054494D45532047414C20),
  (0x1233E, 0x43554E4549464F524D205349474E205552552054494D45532047414E322054454E5520),
  (0x1233F, 0x43554E4549464F524D205349474E205552552054494D45532047415220),
  (0x12340, 0x43554E4549464F524D205349474E205552552054494D455320475520)]
def names_333 : List (Nat × Nat) := [
  (0x12341, 0x43554E4549464F524D205349474E205552552054494D455320484120),
  (0x12342, 0x43554E4549464F524D205349474E205552552054494D45532049474920),
  (0x12343, 0x43554E4549464F524D205349474E205552552054494D455320494D20),
  (0x12344, 0x43554E4549464F524D205349474E205552552054494D45532049534820),
  (0x12345, 0x43554E4549464F524D205349474E205552552054494D4553204B4920),
  (0x12346, 0x43554E4549464F524D205349474E205552552054494D4553204C554D20),
  (0x12347, 0x43554E4549464F524D205349474E205552552054494D4553204D494E20),
  (0x12348, 0x43554E4549464F524D205349474E205552552054494D455320504120),
  (0x12349, 0x43554E4549464F524D205349474E205552552054494D45532053484520),
  (0x1234A, 0x43554E4549464F524D205349474E205552552054494D4553205349473420),
  (0x1234B, 0x43554E4549464F524D205349474E205552552054494D455320545520),
  (0x1234C, 0x43554E4549464F524D205349474E205552552054494D4553205520504C55532047554420),
  (0x1234D, 0x43554E4549464F524D205349474E205552552054494D455320554420),
  (0x1234E, 0x43554E4549464F524D205349474E205552552054494D455320555255444120),
  (0x1234F, 0x43554E4549464F524D205349474E20555255444120),
  (0x12350, 0x43554E4549464F524D205349474E2055525544412054494D4553205520),
  (0x12351, 0x43554E4549464F524D205349474E2055534820),
  (0x12352, 0x43554E4549464F524D205349474E205553482054494D4553204120),
  (0x12353, 0x43554E4549464F524D205349474E205553482054494D4553204B5520),
  (0x12354, 0x43554E4549464F524D205349474E205553482054494D4553204B555220),
  (0x12355, 0x43554E4549464F524D205349474E205553482054494D45532054414B3420),
  (0x12356, 0x43554E4549464F524D205349474E205553485820),
  (0x12357, 0x43554E4549464F524D205349474E205553483220),
  (0x12358, 0x43554E4549464F524D205349474E20555348554D5820),
  (0x12359, 0x43554E4549464F524D205349474E205554554B4920),
  (0x1235A, 0x43554E4549464F524D205349474E20555A3320),
  (0x1235B, 0x43554E4549464F524D205349474E20555A332054494D4553204B41534B414C20),
  (0x1235C, 0x43554E4549464F524D205349474E20555A5520),
  (0x1235D, 0x43554E4549464F524D205349474E205A4120),
  (0x1235E, 0x43554E4549464F524D205349474E205A412054454E5520),
  (0x1235F, 0x43554E4549464F524D205349474E205A4120535155415245442054494D4553204B555220),
  (0x12360, 0x43554E4549464F524D205349474E205A414720),
  (0x12361, 0x43554E4549464F524D205349474E205A414D5820),
  (0x12362, 0x43554E4549464F524D205349474E205A453220),
  (0x12363, 0x43554E4549464F524D205349474E205A4920),
  (0x12364, 0x43554E4549464F524D205349474E205A49204F564552205A4920),
  (0x12365, 0x43554E4549464F524D205349474E205A493320),
  (0x12366, 0x43554E4549464F524D205349474E205A494220),
  (0x12367, 0x43554E4549464F524D205349474E205A4942204B4142412054454E5520),
  (0x12368, 0x43554E4549464F524D205349474E205A494720),
  (0x12369, 0x43554E4549464F524D205349474E205A495A3220),
  (0x1236A, 0x43554E4549464F524D205349474E205A5520),
  (0x1236B, 0x43554E4549464F524D205349474E205A553520),
  (0x1236C, 0x43554E4549464F524D205349474E205A55352054494D4553204120),
  (0x1236D, 0x43554E4549464F524D205349474E205A5542555220),
  (0x1236E, 0x43554E4549464F524D205349474E205A554D20),
  (0x1236F, 0x43554E4549464F524D205349474E204B415020454C414D49544520),
  (0x12370, 0x43554E4549464F524D205349474E2041422054494D4553204E554E20),
  (0x12371, 0x43554E4549464F524D205349474E204142322054494D4553204120),
  (0x12372, 0x43554E4549464F524D205349474E20414D41522054494D4553204B554720),
  (0x12373, 0x43554E4549464F524D205349474E20444147204B4953494D352054494D455320553220504C5553204D41534820),
  (0x12374, 0x43554E4549464F524D205349474E204441473320),
  (0x12375, 0x43554E4549464F524D205349474E204449534820504C55532053485520),
  (0x12376, 0x43554E4549464F524D205349474E204455422054494D45532053484520),
  (0x12377, 0x43554E4549464F524D205349474E20455A454E2054494D45532047554420),
  (0x12378, 0x43554E4549464F524D205349474E20455A454E2054494D45532053484520),
  (0x12379, 0x43554E4549464F524D205349474E204741322054494D455320414E20504C5553204B414B20504C5553204120),
  (0x1237A, 0x43554E4549464F524D205349474E204741322054494D4553204153483220),
  (0x1237B, 0x43554E4549464F524D205349474E204745323220),
  (0x1237C, 0x43554E4549464F524D205349474E2047494720),
  (0x1237D, 0x43554E4549464F524D205349474E204855534820),
  (0x1237E, 0x43554E4549464F524D205349474E204B412054494D455320414E53484520),
  (0x1237F, 0x43554E4549464F524D205349474E204B412054494D4553204153483320),
  (0x12380, 0x43554E4549464F524D205349474E204B412054494D4553204749534820)]
def names_334 : List (Nat × Nat) := [
  (0x12381, 0x43554E4549464F524D205349474E204B412054494D45532047554420),
  (0x12382, 0x43554E4549464F524D205349474E204B412054494D45532048492054494D4553204153483220),
  (0x12383, 0x43554E4549464F524D205349474E204B412054494D4553204C554D20),
  (0x12384, 0x43554E4549464F524D205349474E204B412054494D455320504120),
  (0x12385, 0x43554E4549464F524D205349474E204B412054494D4553205348554C20),
  (0x12386, 0x43554E4549464F524D205349474E204B412054494D455320545520),
  (0x12387, 0x43554E4549464F524D205349474E204B412054494D45532055523220),
  (0x12388, 0x43554E4549464F524D205349474E204C414741422054494D455320474920),
  (0x12389, 0x43554E4549464F524D205349474E204C553220534845534849472054494D45532042414420),
  (0x1238A, 0x43554E4549464F524D205349474E204C55322054494D4553204553483220504C5553204C414C20),
  (0x1238B, 0x43554E4549464F524D205349474E204C55322054494D45532053485520),
  (0x1238C, 0x43554E4549464F524D205349474E204D45534820),
  (0x1238D, 0x43554E4549464F524D205349474E204D555348332054494D4553205A4120),
  (0x1238E, 0x43554E4549464F524D205349474E204E413420),
  (0x1238F, 0x43554E4549464F524D205349474E204E494E20),
  (0x12390, 0x43554E4549464F524D205349474E204E494E3920),
  (0x12391, 0x43554E4549464F524D205349474E204E494E4441322054494D45532042414C20),
  (0x12392, 0x43554E4549464F524D205349474E204E494E4441322054494D455320474920),
  (0x12393, 0x43554E4549464F524D205349474E204E55313120524F5441544544204E494E455459204445475245455320),
  (0x12394, 0x43554E4549464F524D205349474E20504553483220415354455249534B20),
  (0x12395, 0x43554E4549464F524D205349474E205049523220),
  (0x12396, 0x43554E4549464F524D205349474E205341472054494D4553204947492047554E5520),
  (0x12397, 0x43554E4549464F524D205349474E2054493220),
  (0x12398, 0x43554E4549464F524D205349474E20554D2054494D4553204D4520),
  (0x12399, 0x43554E4549464F524D205349474E2055205520),
  (0x12400, 0x43554E4549464F524D204E554D45524943205349474E2054574F2041534820),
  (0x12401, 0x43554E4549464F524D204E554D45524943205349474E2054485245452041534820),
  (0x12402, 0x43554E4549464F524D204E554D45524943205349474E20464F55522041534820),
  (0x12403, 0x43554E4549464F524D204E554D45524943205349474E20464956452041534820),
  (0x12404, 0x43554E4549464F524D204E554D45524943205349474E205349582041534820),
  (0x12405, 0x43554E4549464F524D204E554D45524943205349474E20534556454E2041534820),
  (0x12406, 0x43554E4549464F524D204E554D45524943205349474E2045494748542041534820),
  (0x12407, 0x43554E4549464F524D204E554D45524943205349474E204E494E452041534820),
  (0x12408, 0x43554E4549464F524D204E554D45524943205349474E205448524545204449534820),
  (0x12409, 0x43554E4549464F524D204E554D45524943205349474E20464F5552204449534820),
  (0x1240A, 0x43554E4549464F524D204E554D45524943205349474E2046495645204449534820),
  (0x1240B, 0x43554E4549464F524D204E554D45524943205349474E20534958204449534820),
  (0x1240C, 0x43554E4549464F524D204E554D45524943205349474E20534556454E204449534820),
  (0x1240D, 0x43554E4549464F524D204E554D45524943205349474E204549474854204449534820),
  (0x1240E, 0x43554E4549464F524D204E554D45524943205349474E204E494E45204449534820),
  (0x1240F, 0x43554E4549464F524D204E554D45524943205349474E20464F5552205520),
  (0x12410, 0x43554E4549464F524D204E554D45524943205349474E2046495645205520),
  (0x12411, 0x43554E4549464F524D204E554D45524943205349474E20534958205520),
  (0x12412, 0x43554E4549464F524D204E554D45524943205349474E20534556454E205520),
  (0x12413, 0x43554E4549464F524D204E554D45524943205349474E204549474854205520),
  (0x12414, 0x43554E4549464F524D204E554D45524943205349474E204E494E45205520),
  (0x12415, 0x43554E4549464F524D204E554D45524943205349474E204F4E4520474553483220),
  (0x12416, 0x43554E4549464F524D204E554D45524943205349474E2054574F20474553483220),
  (0x12417, 0x43554E4549464F524D204E554D45524943205349474E20544852454520474553483220),
  (0x12418, 0x43554E4549464F524D204E554D45524943205349474E20464F555220474553483220),
  (0x12419, 0x43554E4549464F524D204E554D45524943205349474E204649564520474553483220),
  (0x1241A, 0x43554E4549464F524D204E554D45524943205349474E2053495820474553483220),
  (0x1241B, 0x43554E4549464F524D204E554D45524943205349474E20534556454E20474553483220),
  (0x1241C, 0x43554E4549464F524D204E554D45524943205349474E20454947485420474553483220),
  (0x1241D, 0x43554E4549464F524D204E554D45524943205349474E204E494E4520474553483220),
  (0x1241E, 0x43554E4549464F524D204E554D45524943205349474E204F4E4520474553485520),
  (0x1241F, 0x43554E4549464F524D204E554D45524943205349474E2054574F20474553485520),
  (0x12420, 0x43554E4549464F524D204E554D45524943205349474E20544852454520474553485520),
  (0x12421, 0x43554E4549464F524D204E554D45524943205349474E20464F555220474553485520),
  (0x12422, 0x43554E4549464F524D204E554D45524943205349474E204649564520474553485520),
  (0x12423, 0x43554E4549464F524D204E554D45524943205349474E2054574F20534841523220),
  (0x12424, 0x43554E4549464F524D204E554D45524943205349474E20544852454520534841523220),
  (0x12425, 0x43554E4549464F524D204E554D45524943205349474E2054485245452053484152322056415249414E5420464F524D20),
  (0x12426, 0x43554E4549464F524D204E554D45524943205349474E20464F555220534841523220)]
def names_335 : List (Nat × Nat) := [
  (0x12427, 0x43554E4549464F524D204E554D45524943205349474E204649564520534841523220),
  (0x12428, 0x43554E4549464F524D204E554D45524943205349474E2053495820534841523220),
  (0x12429, 0x43554E4549464F524D204E554D45524943205349474E20534556454E20534841523220),
  (0x1242A, 0x43554E4549464F524D204E554D45524943205349474E20454947485420534841523220),
  (0x1242B, 0x43554E4549464F524D204E554D45524943205349474E204E494E4520534841523220),
  (0x1242C, 0x43554E4549464F524D204E554D45524943205349474E204F4E4520534841525520),
  (0x1242D, 0x43554E4549464F524D204E554D45524943205349474E2054574F20534841525520),
  (0x1242E, 0x43554E4549464F524D204E554D45524943205349474E20544852454520534841525520),
  (0x1242F, 0x43554E4549464F524D204E554D45524943205349474E2054485245452053484152552056415249414E5420464F524D20),
  (0x12430, 0x43554E4549464F524D204E554D45524943205349474E20464F555220534841525520),
  (0x12431, 0x43554E4549464F524D204E554D45524943205349474E204649564520534841525520),
  (0x12432, 0x43554E4549464F524D204E554D45524943205349474E2053484152322054494D45532047414C20504C5553204449534820),
  (0x12433, 0x43554E4549464F524D204E554D45524943205349474E2053484152322054494D45532047414C20504C5553204D494E20),
  (0x12434, 0x43554E4549464F524D204E554D45524943205349474E204F4E45204255525520),
  (0x12435, 0x43554E4549464F524D204E554D45524943205349474E2054574F204255525520),
  (0x12436, 0x43554E4549464F524D204E554D45524943205349474E205448524545204255525520),
  (0x12437, 0x43554E4549464F524D204E554D45524943205349474E20544852454520425552552056415249414E5420464F524D20),
  (0x12438, 0x43554E4549464F524D204E554D45524943205349474E20464F5552204255525520),
  (0x12439, 0x43554E4549464F524D204E554D45524943205349474E2046495645204255525520),
  (0x1243A, 0x43554E4549464F524D204E554D45524943205349474E2054485245452056415249414E5420464F524D20455348313620),
  (0x1243B, 0x43554E4549464F524D204E554D45524943205349474E2054485245452056415249414E5420464F524D20455348323120),
  (0x1243C, 0x43554E4549464F524D204E554D45524943205349474E20464F55522056415249414E5420464F524D204C494D4D5520),
  (0x1243D, 0x43554E4549464F524D204E554D45524943205349474E20464F55522056415249414E5420464F524D204C494D4D553420),
  (0x1243E, 0x43554E4549464F524D204E554D45524943205349474E20464F55522056415249414E5420464F524D204C494D4D55204120),
  (0x1243F, 0x43554E4549464F524D204E554D45524943205349474E20464F55522056415249414E5420464F524D204C494D4D55204220),
  (0x12440, 0x43554E4549464F524D204E554D45524943205349474E205349582056415249414E5420464F524D204153483920),
  (0x12441, 0x43554E4549464F524D204E554D45524943205349474E20534556454E2056415249414E5420464F524D20494D494E3320),
  (0x12442, 0x43554E4549464F524D204E554D45524943205349474E20534556454E2056415249414E5420464F524D20494D494E204120),
  (0x12443, 0x43554E4549464F524D204E554D45524943205349474E20534556454E2056415249414E5420464F524D20494D494E204220),
  (0x12444, 0x43554E4549464F524D204E554D45524943205349474E2045494748542056415249414E5420464F524D205553535520),
  (0x12445, 0x43554E4549464F524D204E554D45524943205349474E2045494748542056415249414E5420464F524D20555353553320),
  (0x12446, 0x43554E4549464F524D204E554D45524943205349474E204E494E452056415249414E5420464F524D20494C494D4D5520),
  (0x12447, 0x43554E4549464F524D204E554D45524943205349474E204E494E452056415249414E5420464F524D20494C494D4D553320),
  (0x12448, 0x43554E4549464F524D204E554D45524943205349474E204E494E452056415249414E5420464F524D20494C494D4D553420),
  (0x12449, 0x43554E4549464F524D204E554D45524943205349474E204E494E452056415249414E5420464F524D20494C494D4D55204120),
  (0x1244A, 0x43554E4549464F524D204E554D45524943205349474E2054574F204153482054454E5520),
  (0x1244B, 0x43554E4549464F524D204E554D45524943205349474E205448524545204153482054454E5520),
  (0x1244C, 0x43554E4549464F524D204E554D45524943205349474E20464F5552204153482054454E5520),
  (0x1244D, 0x43554E4549464F524D204E554D45524943205349474E2046495645204153482054454E5520),
  (0x1244E, 0x43554E4549464F524D204E554D45524943205349474E20534958204153482054454E5520),
  (0x1244F, 0x43554E4549464F524D204E554D45524943205349474E204F4E452042414E3220),
  (0x12450, 0x43554E4549464F524D204E554D45524943205349474E2054574F2042414E3220),
  (0x12451, 0x43554E4549464F524D204E554D45524943205349474E2054485245452042414E3220),
  (0x12452, 0x43554E4549464F524D204E554D45524943205349474E20464F55522042414E3220),
  (0x12453, 0x43554E4549464F524D204E554D45524943205349474E20464F55522042414E322056415249414E5420464F524D20),
  (0x12454, 0x43554E4549464F524D204E554D45524943205349474E20464956452042414E3220),
  (0x12455, 0x43554E4549464F524D204E554D45524943205349474E20464956452042414E322056415249414E5420464F524D20),
  (0x12456, 0x43554E4549464F524D204E554D45524943205349474E204E49474944414D494E20),
  (0x12457, 0x43554E4549464F524D204E554D45524943205349474E204E494749444145534820),
  (0x12458, 0x43554E4549464F524D204E554D45524943205349474E204F4E4520455348453320),
  (0x12459, 0x43554E4549464F524D204E554D45524943205349474E2054574F20455348453320),
  (0x1245A, 0x43554E4549464F524D204E554D45524943205349474E204F4E45205448495244204449534820),
  (0x1245B, 0x43554E4549464F524D204E554D45524943205349474E2054574F20544849524453204449534820),
  (0x1245C, 0x43554E4549464F524D204E554D45524943205349474E204649564520534958544853204449534820),
  (0x1245D, 0x43554E4549464F524D204E554D45524943205349474E204F4E452054484952442056415249414E5420464F524D204120),
  (0x1245E, 0x43554E4549464F524D204E554D45524943205349474E2054574F205448495244532056415249414E5420464F524D204120),
  (0x1245F, 0x43554E4549464F524D204E554D45524943205349474E204F4E45204549474854482041534820),
  (0x12460, 0x43554E4549464F524D204E554D45524943205349474E204F4E4520515541525445522041534820),
  (0x12461, 0x43554E4549464F524D204E554D45524943205349474E204F4C4420415353595249414E204F4E4520534958544820),
  (0x12462, 0x43554E4549464F524D204E554D45524943205349474E204F4C4420415353595249414E204F4E45205155415254455220),
  (0x12463, 0x43554E4549464F524D204E554D45524943205349474E204F4E4520515541525445522047555220),
  (0x12464, 0x43554E4549464F524D204E554D45524943205349474E204F4E452048414C462047555220),
  (0x12465, 0x43554E4549464F524D204E554D45524943205349474E20454C414D495445204F4E4520544849524420),
  (0x12466, 0x43554E4549464F524D204E554D45524943205349474E20454C414D4954452054574F2054484952445320)]
def names_336 : List (Nat × Nat) := [
  (0x12467, 0x43554E4549464F524D204E554D45524943205349474E20454C414D49544520464F52545920),
  (0x12468, 0x43554E4549464F524D204E554D45524943205349474E20454C414D49544520464946545920),
  (0x12469, 0x43554E4549464F524D204E554D45524943205349474E20464F555220552056415249414E5420464F524D20),
  (0x1246A, 0x43554E4549464F524D204E554D45524943205349474E204649564520552056415249414E5420464F524D20),
  (0x1246B, 0x43554E4549464F524D204E554D45524943205349474E2053495820552056415249414E5420464F524D20),
  (0x1246C, 0x43554E4549464F524D204E554D45524943205349474E20534556454E20552056415249414E5420464F524D20),
  (0x1246D, 0x43554E4549464F524D204E554D45524943205349474E20454947485420552056415249414E5420464F524D20),
  (0x1246E, 0x43554E4549464F524D204E554D45524943205349474E204E494E4520552056415249414E5420464F524D20),
  (0x12470, 0x43554E4549464F524D2050554E4354554154494F4E205349474E204F4C4420415353595249414E20574F5244204449564944455220),
  (0x12471, 0x43554E4549464F524D2050554E4354554154494F4E205349474E20564552544943414C20434F4C4F4E20),
  (0x12472, 0x43554E4549464F524D2050554E4354554154494F4E205349474E20444941474F4E414C20434F4C4F4E20),
  (0x12473, 0x43554E4549464F524D2050554E4354554154494F4E205349474E20444941474F4E414C20545249434F4C4F4E20),
  (0x12474, 0x43554E4549464F524D2050554E4354554154494F4E205349474E20444941474F4E414C2051554144434F4C4F4E20),
  (0x12480, 0x43554E4549464F524D205349474E2041422054494D4553204E554E2054454E5520),
  (0x12481, 0x43554E4549464F524D205349474E2041422054494D4553205348553220),
  (0x12482, 0x43554E4549464F524D205349474E2041442054494D4553204553483220),
  (0x12483, 0x43554E4549464F524D205349474E204241442054494D455320444953482054454E5520),
  (0x12484, 0x43554E4549464F524D205349474E204241484152322054494D45532041423220),
  (0x12485, 0x43554E4549464F524D205349474E204241484152322054494D4553204E4920),
  (0x12486, 0x43554E4549464F524D205349474E204241484152322054494D4553205A4120),
  (0x12487, 0x43554E4549464F524D205349474E204255204F5645522042552054494D4553204E413220),
  (0x12488, 0x43554E4549464F524D205349474E2044412054494D45532054414B3420),
  (0x12489, 0x43554E4549464F524D205349474E204441472054494D4553204B555220),
  (0x1248A, 0x43554E4549464F524D205349474E2044494D2054494D45532049474920),
  (0x1248B, 0x43554E4549464F524D205349474E2044494D2054494D455320552055205520),
  (0x1248C, 0x43554E4549464F524D205349474E2044494D322054494D455320554420),
  (0x1248D, 0x43554E4549464F524D205349474E204455472054494D455320414E53484520),
  (0x1248E, 0x43554E4549464F524D205349474E204455472054494D45532041534820),
  (0x1248F, 0x43554E4549464F524D205349474E204455472054494D455320415348204154204C45465420),
  (0x12490, 0x43554E4549464F524D205349474E204455472054494D45532044494E20),
  (0x12491, 0x43554E4549464F524D205349474E204455472054494D45532044554E20),
  (0x12492, 0x43554E4549464F524D205349474E204455472054494D4553204552494E3220),
  (0x12493, 0x43554E4549464F524D205349474E204455472054494D455320474120),
  (0x12494, 0x43554E4549464F524D205349474E204455472054494D455320474920),
  (0x12495, 0x43554E4549464F524D205349474E204455472054494D455320474952322047554E5520),
  (0x12496, 0x43554E4549464F524D205349474E204455472054494D4553204749534820),
  (0x12497, 0x43554E4549464F524D205349474E204455472054494D455320484120),
  (0x12498, 0x43554E4549464F524D205349474E204455472054494D455320484920),
  (0x12499, 0x43554E4549464F524D205349474E204455472054494D4553204947492047554E5520),
  (0x1249A, 0x43554E4549464F524D205349474E204455472054494D4553204B41534B414C20),
  (0x1249B, 0x43554E4549464F524D205349474E204455472054494D4553204B555220),
  (0x1249C, 0x43554E4549464F524D205349474E204455472054494D4553204B555348553220),
  (0x1249D, 0x43554E4549464F524D205349474E204455472054494D4553204B555348553220504C5553204B41534B414C20),
  (0x1249E, 0x43554E4549464F524D205349474E204455472054494D4553204C414B2D30323020),
  (0x1249F, 0x43554E4549464F524D205349474E204455472054494D4553204C414D20),
  (0x124A0, 0x43554E4549464F524D205349474E204455472054494D4553204C414D2054494D4553204B555220),
  (0x124A1, 0x43554E4549464F524D205349474E204455472054494D4553204C554820504C5553204749534820),
  (0x124A2, 0x43554E4549464F524D205349474E204455472054494D4553204D41534820),
  (0x124A3, 0x43554E4549464F524D205349474E204455472054494D4553204D455320),
  (0x124A4, 0x43554E4549464F524D205349474E204455472054494D4553204D4920),
  (0x124A5, 0x43554E4549464F524D205349474E204455472054494D4553204E4920),
  (0x124A6, 0x43554E4549464F524D205349474E204455472054494D455320504920),
  (0x124A7, 0x43554E4549464F524D205349474E204455472054494D45532053484520),
  (0x124A8, 0x43554E4549464F524D205349474E204455472054494D45532053492047554E5520),
  (0x124A9, 0x43554E4549464F524D205349474E2045322054494D4553204B555220),
  (0x124AA, 0x43554E4549464F524D205349474E2045322054494D45532050415020),
  (0x124AB, 0x43554E4549464F524D205349474E204552494E32205820),
  (0x124AC, 0x43554E4549464F524D205349474E20455348322043524F5353494E47204553483220),
  (0x124AD, 0x43554E4549464F524D205349474E20455A454E20534845534849472054494D45532041534820),
  (0x124AE, 0x43554E4549464F524D205349474E20455A454E20534845534849472054494D455320484920),
  (0x124AF, 0x43554E4549464F524D205349474E20455A454E20534845534849472054494D4553204947492047554E5520),
  (0x124B0, 0x43554E4549464F524D205349474E20455A454E20534845534849472054494D4553204C4120),
  (0x124B1, 0x43554E4549464F524D205349474E20455A454E20534845534849472054494D4553204C414C20),
  (0x124B2, 0x43554E4549464F524D205349474E20455A454E20534845534849472054494D4553204D4520)]
def names_337 : List (Nat × Nat) := [
  (0x124B3, 0x43554E4549464F524D205349474E20455A454E20534845534849472054494D4553204D455320),
  (0x124B4, 0x43554E4549464F524D205349474E20455A454E20534845534849472054494D455320535520),
  (0x124B5, 0x43554E4549464F524D205349474E20455A454E2054494D455320535520),
  (0x124B6, 0x43554E4549464F524D205349474E204741322054494D45532042414841523220),
  (0x124B7, 0x43554E4549464F524D205349474E204741322054494D45532044494D2047554E5520),
  (0x124B8, 0x43554E4549464F524D205349474E204741322054494D4553204455472054494D4553204947492047554E5520),
  (0x124B9, 0x43554E4549464F524D205349474E204741322054494D4553204455472054494D4553204B41534B414C20),
  (0x124BA, 0x43554E4549464F524D205349474E204741322054494D4553204552454E20),
  (0x124BB, 0x43554E4549464F524D205349474E204741322054494D455320474120),
  (0x124BC, 0x43554E4549464F524D205349474E204741322054494D45532047415220504C555320444920),
  (0x124BD, 0x43554E4549464F524D205349474E204741322054494D45532047415220504C5553204E4520),
  (0x124BE, 0x43554E4549464F524D205349474E204741322054494D455320484120504C5553204120),
  (0x124BF, 0x43554E4549464F524D205349474E204741322054494D4553204B555348553220504C5553204B41534B414C20),
  (0x124C0, 0x43554E4549464F524D205349474E204741322054494D4553204C414D20),
  (0x124C1, 0x43554E4549464F524D205349474E204741322054494D4553204C414D2054494D4553204B555220),
  (0x124C2, 0x43554E4549464F524D205349474E204741322054494D4553204C554820),
  (0x124C3, 0x43554E4549464F524D205349474E204741322054494D4553204D55534820),
  (0x124C4, 0x43554E4549464F524D205349474E204741322054494D4553204E4520),
  (0x124C5, 0x43554E4549464F524D205349474E204741322054494D4553204E4520504C555320453220),
  (0x124C6, 0x43554E4549464F524D205349474E204741322054494D4553204E4520504C555320474920),
  (0x124C7, 0x43554E4549464F524D205349474E204741322054494D4553205348494D20),
  (0x124C8, 0x43554E4549464F524D205349474E204741322054494D4553205A495A3220),
  (0x124C9, 0x43554E4549464F524D205349474E204741424120524F5441544544204E494E455459204445475245455320),
  (0x124CA, 0x43554E4549464F524D205349474E204745534854494E2054494D4553205520),
  (0x124CB, 0x43554E4549464F524D205349474E20474953482054494D455320474953482043524F5353494E47204749534820),
  (0x124CC, 0x43554E4549464F524D205349474E204755322054494D4553204947492047554E5520),
  (0x124CD, 0x43554E4549464F524D205349474E2047554420504C555320474953482054494D45532054414B3420),
  (0x124CE, 0x43554E4549464F524D205349474E2048412054454E552047554E5520),
  (0x124CF, 0x43554E4549464F524D205349474E2048492054494D455320415348204F5645522048492054494D45532041534820),
  (0x124D0, 0x43554E4549464F524D205349474E204B412054494D455320425520),
  (0x124D1, 0x43554E4549464F524D205349474E204B412054494D4553204B4120),
  (0x124D2, 0x43554E4549464F524D205349474E204B412054494D455320552055205520),
  (0x124D3, 0x43554E4549464F524D205349474E204B412054494D455320555220),
  (0x124D4, 0x43554E4549464F524D205349474E204C414741422054494D4553205A55204F564552205A5520),
  (0x124D5, 0x43554E4549464F524D205349474E204C414B2D30303320),
  (0x124D6, 0x43554E4549464F524D205349474E204C414B2D30323120),
  (0x124D7, 0x43554E4549464F524D205349474E204C414B2D30323520),
  (0x124D8, 0x43554E4549464F524D205349474E204C414B2D30333020),
  (0x124D9, 0x43554E4549464F524D205349474E204C414B2D30353020),
  (0x124DA, 0x43554E4549464F524D205349474E204C414B2D30353120),
  (0x124DB, 0x43554E4549464F524D205349474E204C414B2D30363220),
  (0x124DC, 0x43554E4549464F524D205349474E204C414B2D303739204F564552204C414B2D3037392047554E5520),
  (0x124DD, 0x43554E4549464F524D205349474E204C414B2D30383020),
  (0x124DE, 0x43554E4549464F524D205349474E204C414B2D303831204F564552204C414B2D30383120),
  (0x124DF, 0x43554E4549464F524D205349474E204C414B2D30393220),
  (0x124E0, 0x43554E4549464F524D205349474E204C414B2D31333020),
  (0x124E1, 0x43554E4549464F524D205349474E204C414B2D31343220),
  (0x124E2, 0x43554E4549464F524D205349474E204C414B2D32313020),
  (0x124E3, 0x43554E4549464F524D205349474E204C414B2D32313920),
  (0x124E4, 0x43554E4549464F524D205349474E204C414B2D32323020),
  (0x124E5, 0x43554E4549464F524D205349474E204C414B2D32323520),
  (0x124E6, 0x43554E4549464F524D205349474E204C414B2D32323820),
  (0x124E7, 0x43554E4549464F524D205349474E204C414B2D32333820),
  (0x124E8, 0x43554E4549464F524D205349474E204C414B2D32363520),
  (0x124E9, 0x43554E4549464F524D205349474E204C414B2D32363620),
  (0x124EA, 0x43554E4549464F524D205349474E204C414B2D33343320),
  (0x124EB, 0x43554E4549464F524D205349474E204C414B2D33343720),
  (0x124EC, 0x43554E4549464F524D205349474E204C414B2D33343820),
  (0x124ED, 0x43554E4549464F524D205349474E204C414B2D33383320),
  (0x124EE, 0x43554E4549464F524D205349474E204C414B2D33383420),
  (0x124EF, 0x43554E4549464F524D205349474E204C414B2D33393020),
  (0x124F0, 0x43554E4549464F524D205349474E204C414B2D34343120),
  (0x124F1, 0x43554E4549464F524D205349474E204C414B2D34343920),
  (0x124F2, 0x43554E4549464F524D205349474E204C414B2D3434392054494D455320475520)]
def names_338 : List (Nat × Nat) := [
  (0x124F3, 0x43554E4549464F524D205349474E204C414B2D3434392054494D45532049474920),
  (0x124F4, 0x43554E4549464F524D205349474E204C414B2D3434392054494D45532050415020504C5553204C553320),
  (0x124F5, 0x43554E4549464F524D205349474E204C414B2D3434392054494D45532050415020504C55532050415020504C5553204C553320),
  (0x124F6, 0x43554E4549464F524D205349474E204C414B2D3434392054494D455320553220504C555320424120),
  (0x124F7, 0x43554E4549464F524D205349474E204C414B2D34353020),
  (0x124F8, 0x43554E4549464F524D205349474E204C414B2D34353720),
  (0x124F9, 0x43554E4549464F524D205349474E204C414B2D34373020),
  (0x124FA, 0x43554E4549464F524D205349474E204C414B2D34383320),
  (0x124FB, 0x43554E4549464F524D205349474E204C414B2D34393020),
  (0x124FC, 0x43554E4549464F524D205349474E204C414B2D34393220),
  (0x124FD, 0x43554E4549464F524D205349474E204C414B2D34393320),
  (0x124FE, 0x43554E4549464F524D205349474E204C414B2D34393520),
  (0x124FF, 0x43554E4549464F524D205349474E204C414B2D35353020),
  (0x12500, 0x43554E4549464F524D205349474E204C414B2D36303820),
  (0x12501, 0x43554E4549464F524D205349474E204C414B2D36313720),
  (0x12502, 0x43554E4549464F524D205349474E204C414B2D3631372054494D45532041534820),
  (0x12503, 0x43554E4549464F524D205349474E204C414B2D3631372054494D45532042414420),
  (0x12504, 0x43554E4549464F524D205349474E204C414B2D3631372054494D45532044554E332047554E552047554E5520),
  (0x12505, 0x43554E4549464F524D205349474E204C414B2D3631372054494D4553204B553320),
  (0x12506, 0x43554E4549464F524D205349474E204C414B2D3631372054494D4553204C4120),
  (0x12507, 0x43554E4549464F524D205349474E204C414B2D3631372054494D45532054415220),
  (0x12508, 0x43554E4549464F524D205349474E204C414B2D3631372054494D455320544520),
  (0x12509, 0x43554E4549464F524D205349474E204C414B2D3631372054494D455320553220),
  (0x1250A, 0x43554E4549464F524D205349474E204C414B2D3631372054494D455320554420),
  (0x1250B, 0x43554E4549464F524D205349474E204C414B2D3631372054494D455320555255444120),
  (0x1250C, 0x43554E4549464F524D205349474E204C414B2D36333620),
  (0x1250D, 0x43554E4549464F524D205349474E204C414B2D36343820),
  (0x1250E, 0x43554E4549464F524D205349474E204C414B2D3634382054494D45532044554220),
  (0x1250F, 0x43554E4549464F524D205349474E204C414B2D3634382054494D455320474120),
  (0x12510, 0x43554E4549464F524D205349474E204C414B2D3634382054494D45532049474920),
  (0x12511, 0x43554E4549464F524D205349474E204C414B2D3634382054494D4553204947492047554E5520),
  (0x12512, 0x43554E4549464F524D205349474E204C414B2D3634382054494D4553204E4920),
  (0x12513, 0x43554E4549464F524D205349474E204C414B2D3634382054494D45532050415020504C55532050415020504C5553204C553320),
  (0x12514, 0x43554E4549464F524D205349474E204C414B2D3634382054494D455320534845534820504C5553204B4920),
  (0x12515, 0x43554E4549464F524D205349474E204C414B2D3634382054494D455320554420),
  (0x12516, 0x43554E4549464F524D205349474E204C414B2D3634382054494D455320555255444120),
  (0x12517, 0x43554E4549464F524D205349474E204C414B2D37323420),
  (0x12518, 0x43554E4549464F524D205349474E204C414B2D37343920),
  (0x12519, 0x43554E4549464F524D205349474E204C55322047554E552054494D45532041534820),
  (0x1251A, 0x43554E4549464F524D205349474E204C55322054494D4553204449534820),
  (0x1251B, 0x43554E4549464F524D205349474E204C55322054494D45532048414C20),
  (0x1251C, 0x43554E4549464F524D205349474E204C55322054494D45532050415020),
  (0x1251D, 0x43554E4549464F524D205349474E204C55322054494D45532050415020504C55532050415020504C5553204C553320),
  (0x1251E, 0x43554E4549464F524D205349474E204C55322054494D45532054414B3420),
  (0x1251F, 0x43554E4549464F524D205349474E204D4920504C5553205A413720),
  (0x12520, 0x43554E4549464F524D205349474E204D555348204F564552204D5553482054494D455320474120),
  (0x12521, 0x43554E4549464F524D205349474E204D555348204F564552204D5553482054494D4553204B414B20),
  (0x12522, 0x43554E4549464F524D205349474E204E494E4441322054494D45532044494D2047554E5520),
  (0x12523, 0x43554E4549464F524D205349474E204E494E4441322054494D4553204749534820),
  (0x12524, 0x43554E4549464F524D205349474E204E494E4441322054494D45532047554C20),
  (0x12525, 0x43554E4549464F524D205349474E204E494E4441322054494D455320484920),
  (0x12526, 0x43554E4549464F524D205349474E204E494E4441322054494D4553204B4553483220),
  (0x12527, 0x43554E4549464F524D205349474E204E494E4441322054494D4553204C414B2D30353020),
  (0x12528, 0x43554E4549464F524D205349474E204E494E4441322054494D4553204D41534820),
  (0x12529, 0x43554E4549464F524D205349474E204E494E4441322054494D45532050415020504C55532050415020),
  (0x1252A, 0x43554E4549464F524D205349474E204E494E4441322054494D4553205520),
  (0x1252B, 0x43554E4549464F524D205349474E204E494E4441322054494D4553205520504C5553205520),
  (0x1252C, 0x43554E4549464F524D205349474E204E494E4441322054494D455320555255444120),
  (0x1252D, 0x43554E4549464F524D205349474E205341472047554E552054494D455320484120),
  (0x1252E, 0x43554E4549464F524D205349474E205341472054494D455320454E20),
  (0x1252F, 0x43554E4549464F524D205349474E205341472054494D455320534845204154204C45465420),
  (0x12530, 0x43554E4549464F524D205349474E205341472054494D45532054414B3420),
  (0x12531, 0x43554E4549464F524D205349474E20534841362054454E5520),
  (0x12532, 0x43554E4549464F524D205349474E20534845204F5645522053484520)]
def names_339 : List (Nat × Nat) := [
  (0x12533, 0x43554E4549464F524D205349474E2053484520504C5553204855423220),
  (0x12534, 0x43554E4549464F524D205349474E2053484520504C5553204E414D3220),
  (0x12535, 0x43554E4549464F524D205349474E2053484520504C55532053415220),
  (0x12536, 0x43554E4549464F524D205349474E205348553220504C5553204455472054494D4553204E4920),
  (0x12537, 0x43554E4549464F524D205349474E205348553220504C55532045322054494D455320414E20),
  (0x12538, 0x43554E4549464F524D205349474E2053492054494D45532054414B3420),
  (0x12539, 0x43554E4549464F524D205349474E2054414B3420504C55532053414720),
  (0x1253A, 0x43554E4549464F524D205349474E2054554D2054494D45532047414E322054454E5520),
  (0x1253B, 0x43554E4549464F524D205349474E2054554D2054494D4553205448524545204449534820),
  (0x1253C, 0x43554E4549464F524D205349474E2055523220494E56455254454420),
  (0x1253D, 0x43554E4549464F524D205349474E205552322054494D455320554420),
  (0x1253E, 0x43554E4549464F524D205349474E205552552054494D455320444152413320),
  (0x1253F, 0x43554E4549464F524D205349474E205552552054494D4553204C414B2D36363820),
  (0x12540, 0x43554E4549464F524D205349474E205552552054494D4553204C553320),
  (0x12541, 0x43554E4549464F524D205349474E205A413720),
  (0x12542, 0x43554E4549464F524D205349474E205A55204F564552205A5520504C55532053415220),
  (0x12543, 0x43554E4549464F524D205349474E205A55352054494D455320544852454520444953482054454E5520),
  (0x13000, 0x454759505449414E20484945524F474C595048204130303120),
  (0x13001, 0x454759505449414E20484945524F474C595048204130303220),
  (0x13002, 0x454759505449414E20484945524F474C595048204130303320),
  (0x13003, 0x454759505449414E20484945524F474C595048204130303420),
  (0x13004, 0x454759505449414E20484945524F474C595048204130303520),
  (0x13005, 0x454759505449414E20484945524F474C59504820413030354120),
  (0x13006, 0x454759505449414E20484945524F474C595048204130303620),
  (0x13007, 0x454759505449414E20484945524F474C59504820413030364120),
  (0x13008, 0x454759505449414E20484945524F474C59504820413030364220),
  (0x13009, 0x454759505449414E20484945524F474C595048204130303720),
  (0x1300A, 0x454759505449414E20484945524F474C595048204130303820),
  (0x1300B, 0x454759505449414E20484945524F474C595048204130303920),
  (0x1300C, 0x454759505449414E20484945524F474C595048204130313020),
  (0x1300D, 0x454759505449414E20484945524F474C595048204130313120),
  (0x1300E, 0x454759505449414E20484945524F474C595048204130313220),
  (0x1300F, 0x454759505449414E20484945524F474C595048204130313320),
  (0x13010, 0x454759505449414E20484945524F474C595048204130313420),
  (0x13011, 0x454759505449414E20484945524F474C59504820413031344120),
  (0x13012, 0x454759505449414E20484945524F474C595048204130313520),
  (0x13013, 0x454759505449414E20484945524F474C595048204130313620),
  (0x13014, 0x454759505449414E20484945524F474C595048204130313720),
  (0x13015, 0x454759505449414E20484945524F474C59504820413031374120),
  (0x13016, 0x454759505449414E20484945524F474C595048204130313820),
  (0x13017, 0x454759505449414E20484945524F474C595048204130313920),
  (0x13018, 0x454759505449414E20484945524F474C595048204130323020),
  (0x13019, 0x454759505449414E20484945524F474C595048204130323120),
  (0x1301A, 0x454759505449414E20484945524F474C595048204130323220),
  (0x1301B, 0x454759505449414E20484945524F474C595048204130323320),
  (0x1301C, 0x454759505449414E20484945524F474C595048204130323420),
  (0x1301D, 0x454759505449414E20484945524F474C595048204130323520),
  (0x1301E, 0x454759505449414E20484945524F474C595048204130323620),
  (0x1301F, 0x454759505449414E20484945524F474C595048204130323720),
  (0x13020, 0x454759505449414E20484945524F474C595048204130323820),
  (0x13021, 0x454759505449414E20484945524F474C595048204130323920),
  (0x13022, 0x454759505449414E20484945524F474C595048204130333020),
  (0x13023, 0x454759505449414E20484945524F474C595048204130333120),
  (0x13024, 0x454759505449414E20484945524F474C595048204130333220),
  (0x13025, 0x454759505449414E20484945524F474C59504820413033324120),
  (0x13026, 0x454759505449414E20484945524F474C595048204130333320),
  (0x13027, 0x454759505449414E20484945524F474C595048204130333420),
  (0x13028, 0x454759505449414E20484945524F474C595048204130333520),
  (0x13029, 0x454759505449414E20484945524F474C595048204130333620),
  (0x1302A, 0x454759505449414E20484945524F474C595048204130333720),
  (0x1302B, 0x454759505449414E20484945524F474C595048204130333820),
  (0x1302C, 0x454759505449414E20484945524F474C595048204130333920),
  (0x1302D, 0x454759505449414E20484945524F474C595048204130343020),
  (0x1302E, 0x454759505449414E20484945524F474C59504820413034304120)]
def names_340 : List (Nat × Nat) := [
  (0x1302F, 0x454759505449414E20484945524F474C595048204130343120),
  (0x13030, 0x454759505449414E20484945524F474C595048204130343220),
  (0x13031, 0x454759505449414E20484945524F474C59504820413034324120),
  (0x13032, 0x454759505449414E20484945524F474C595048204130343320),
  (0x13033, 0x454759505449414E20484945524F474C59504820413034334120),
  (0x13034, 0x454759505449414E20484945524F474C595048204130343420),
  (0x13035, 0x454759505449414E20484945524F474C595048204130343520),
  (0x13036, 0x454759505449414E20484945524F474C59504820413034354120),
  (0x13037, 0x454759505449414E20484945524F474C595048204130343620),
  (0x13038, 0x454759505449414E20484945524F474C595048204130343720),
  (0x13039, 0x454759505449414E20484945524F474C595048204130343820),
  (0x1303A, 0x454759505449414E20484945524F474C595048204130343920),
  (0x1303B, 0x454759505449414E20484945524F474C595048204130353020),
  (0x1303C, 0x454759505449414E20484945524F474C595048204130353120),
  (0x1303D, 0x454759505449414E20484945524F474C595048204130353220),
  (0x1303E, 0x454759505449414E20484945524F474C595048204130353320),
  (0x1303F, 0x454759505449414E20484945524F474C595048204130353420),
  (0x13040, 0x454759505449414E20484945524F474C595048204130353520),
  (0x13041, 0x454759505449414E20484945524F474C595048204130353620),
  (0x13042, 0x454759505449414E20484945524F474C595048204130353720),
  (0x13043, 0x454759505449414E20484945524F474C595048204130353820),
  (0x13044, 0x454759505449414E20484945524F474C595048204130353920),
  (0x13045, 0x454759505449414E20484945524F474C595048204130363020),
  (0x13046, 0x454759505449414E20484945524F474C595048204130363120),
  (0x13047, 0x454759505449414E20484945524F474C595048204130363220),
  (0x13048, 0x454759505449414E20484945524F474C595048204130363320),
  (0x13049, 0x454759505449414E20484945524F474C595048204130363420),
  (0x1304A, 0x454759505449414E20484945524F474C595048204130363520),
  (0x1304B, 0x454759505449414E20484945524F474C595048204130363620),
  (0x1304C, 0x454759505449414E20484945524F474C595048204130363720),
  (0x1304D, 0x454759505449414E20484945524F474C595048204130363820),
  (0x1304E, 0x454759505449414E20484945524F474C595048204130363920),
  (0x1304F, 0x454759505449414E20484945524F474C595048204130373020),
  (0x13050, 0x454759505449414E20484945524F474C595048204230303120),
  (0x13051, 0x454759505449414E20484945524F474C595048204230303220),
  (0x13052, 0x454759505449414E20484945524F474C595048204230303320),
  (0x13053, 0x454759505449414E20484945524F474C595048204230303420),
  (0x13054, 0x454759505449414E20484945524F474C595048204230303520),
  (0x13055, 0x454759505449414E20484945524F474C59504820423030354120),
  (0x13056, 0x454759505449414E20484945524F474C595048204230303620),
  (0x13057, 0x454759505449414E20484945524F474C595048204230303720),
  (0x13058, 0x454759505449414E20484945524F474C595048204230303820),
  (0x13059, 0x454759505449414E20484945524F474C595048204230303920),
  (0x1305A, 0x454759505449414E20484945524F474C595048204330303120),
  (0x1305B, 0x454759505449414E20484945524F474C595048204330303220),
  (0x1305C, 0x454759505449414E20484945524F474C59504820433030324120),
  (0x1305D, 0x454759505449414E20484945524F474C59504820433030324220),
  (0x1305E, 0x454759505449414E20484945524F474C59504820433030324320),
  (0x1305F, 0x454759505449414E20484945524F474C595048204330303320),
  (0x13060, 0x454759505449414E20484945524F474C595048204330303420),
  (0x13061, 0x454759505449414E20484945524F474C595048204330303520),
  (0x13062, 0x454759505449414E20484945524F474C595048204330303620),
  (0x13063, 0x454759505449414E20484945524F474C595048204330303720),
  (0x13064, 0x454759505449414E20484945524F474C595048204330303820),
  (0x13065, 0x454759505449414E20484945524F474C595048204330303920),
  (0x13066, 0x454759505449414E20484945524F474C595048204330313020),
  (0x13067, 0x454759505449414E20484945524F474C59504820433031304120),
  (0x13068, 0x454759505449414E20484945524F474C595048204330313120),
  (0x13069, 0x454759505449414E20484945524F474C595048204330313220),
  (0x1306A, 0x454759505449414E20484945524F474C595048204330313320),
  (0x1306B, 0x454759505449414E20484945524F474C595048204330313420),
  (0x1306C, 0x454759505449414E20484945524F474C595048204330313520),
  (0x1306D, 0x454759505449414E20484945524F474C595048204330313620),
  (0x1306E, 0x454759505449414E20484945524F474C595048204330313720)]
def names_341 : List (Nat × Nat) := [
  (0x1306F, 0x454759505449414E20484945524F474C595048204330313820),
  (0x13070, 0x454759505449414E20484945524F474C595048204330313920),
  (0x13071, 0x454759505449414E20484945524F474C595048204330323020),
  (0x13072, 0x454759505449414E20484945524F474C595048204330323120),
  (0x13073, 0x454759505449414E20484945524F474C595048204330323220),
  (0x13074, 0x454759505449414E20484945524F474C595048204330323320),
  (0x13075, 0x454759505449414E20484945524F474C595048204330323420),
  (0x13076, 0x454759505449414E20484945524F474C595048204430303120),
  (0x13077, 0x454759505449414E20484945524F474C595048204430303220),
  (0x13078, 0x454759505449414E20484945524F474C595048204430303320),
  (0x13079, 0x454759505449414E20484945524F474C595048204430303420),
  (0x1307A, 0x454759505449414E20484945524F474C595048204430303520),
  (0x1307B, 0x454759505449414E20484945524F474C595048204430303620),
  (0x1307C, 0x454759505449414E20484945524F474C595048204430303720),
  (0x1307D, 0x454759505449414E20484945524F474C595048204430303820),
  (0x1307E, 0x454759505449414E20484945524F474C59504820443030384120),
  (0x1307F, 0x454759505449414E20484945524F474C595048204430303920),
  (0x13080, 0x454759505449414E20484945524F474C595048204430313020),
  (0x13081, 0x454759505449414E20484945524F474C595048204430313120),
  (0x13082, 0x454759505449414E20484945524F474C595048204430313220),
  (0x13083, 0x454759505449414E20484945524F474C595048204430313320),
  (0x13084, 0x454759505449414E20484945524F474C595048204430313420),
  (0x13085, 0x454759505449414E20484945524F474C595048204430313520),
  (0x13086, 0x454759505449414E20484945524F474C595048204430313620),
  (0x13087, 0x454759505449414E20484945524F474C595048204430313720),
  (0x13088, 0x454759505449414E20484945524F474C595048204430313820),
  (0x13089, 0x454759505449414E20484945524F474C595048204430313920),
  (0x1308A, 0x454759505449414E20484945524F474C595048204430323020),
  (0x1308B, 0x454759505449414E20484945524F474C595048204430323120),
  (0x1308C, 0x454759505449414E20484945524F474C595048204430323220),
  (0x1308D, 0x454759505449414E20484945524F474C595048204430323320),
  (0x1308E, 0x454759505449414E20484945524F474C595048204430323420),
  (0x1308F, 0x454759505449414E20484945524F474C595048204430323520),
  (0x13090, 0x454759505449414E20484945524F474C595048204430323620),
  (0x13091, 0x454759505449414E20484945524F474C595048204430323720),
  (0x13092, 0x454759505449414E20484945524F474C59504820443032374120),
  (0x13093, 0x454759505449414E20484945524F474C595048204430323820),
  (0x13094, 0x454759505449414E20484945524F474C595048204430323920),
  (0x13095, 0x454759505449414E20484945524F474C595048204430333020),
  (0x13096, 0x454759505449414E20484945524F474C595048204430333120),
  (0x13097, 0x454759505449414E20484945524F474C59504820443033314120),
  (0x13098, 0x454759505449414E20484945524F474C595048204430333220),
  (0x13099, 0x454759505449414E20484945524F474C595048204430333320),
  (0x1309A, 0x454759505449414E20484945524F474C595048204430333420),
  (0x1309B, 0x454759505449414E20484945524F474C59504820443033344120),
  (0x1309C, 0x454759505449414E20484945524F474C595048204430333520),
  (0x1309D, 0x454759505449414E20484945524F474C595048204430333620),
  (0x1309E, 0x454759505449414E20484945524F474C595048204430333720),
  (0x1309F, 0x454759505449414E20484945524F474C595048204430333820),
  (0x130A0, 0x454759505449414E20484945524F474C595048204430333920),
  (0x130A1, 0x454759505449414E20484945524F474C595048204430343020),
  (0x130A2, 0x454759505449414E20484945524F474C595048204430343120),
  (0x130A3, 0x454759505449414E20484945524F474C595048204430343220),
  (0x130A4, 0x454759505449414E20484945524F474C595048204430343320),
  (0x130A5, 0x454759505449414E20484945524F474C595048204430343420),
  (0x130A6, 0x454759505449414E20484945524F474C595048204430343520),
  (0x130A7, 0x454759505449414E20484945524F474C595048204430343620),
  (0x130A8, 0x454759505449414E20484945524F474C59504820443034364120),
  (0x130A9, 0x454759505449414E20484945524F474C595048204430343720),
  (0x130AA, 0x454759505449414E20484945524F474C595048204430343820),
  (0x130AB, 0x454759505449414E20484945524F474C59504820443034384120),
  (0x130AC, 0x454759505449414E20484945524F474C595048204430343920),
  (0x130AD, 0x454759505449414E20484945524F474C595048204430353020),
  (0x130AE, 0x454759505449414E20484945524F474C59504820443035304120)]
def names_342 : List (Nat × Nat) := [
  (0x130AF, 0x454759505449414E20484945524F474C59504820443035304220),
  (0x130B0, 0x454759505449414E20484945524F474C59504820443035304320),
  (0x130B1, 0x454759505449414E20484945524F474C59504820443035304420),
  (0x130B2, 0x454759505449414E20484945524F474C59504820443035304520),
  (0x130B3, 0x454759505449414E20484945524F474C59504820443035304620),
  (0x130B4, 0x454759505449414E20484945524F474C59504820443035304720),
  (0x130B5, 0x454759505449414E20484945524F474C59504820443035304820),
  (0x130B6, 0x454759505449414E20484945524F474C59504820443035304920),
  (0x130B7, 0x454759505449414E20484945524F474C595048204430353120),
  (0x130B8, 0x454759505449414E20484945524F474C595048204430353220),
  (0x130B9, 0x454759505449414E20484945524F474C59504820443035324120),
  (0x130BA, 0x454759505449414E20484945524F474C595048204430353320),
  (0x130BB, 0x454759505449414E20484945524F474C595048204430353420),
  (0x130BC, 0x454759505449414E20484945524F474C59504820443035344120),
  (0x130BD, 0x454759505449414E20484945524F474C595048204430353520),
  (0x130BE, 0x454759505449414E20484945524F474C595048204430353620),
  (0x130BF, 0x454759505449414E20484945524F474C595048204430353720),
  (0x130C0, 0x454759505449414E20484945524F474C595048204430353820),
  (0x130C1, 0x454759505449414E20484945524F474C595048204430353920),
  (0x130C2, 0x454759505449414E20484945524F474C595048204430363020),
  (0x130C3, 0x454759505449414E20484945524F474C595048204430363120),
  (0x130C4, 0x454759505449414E20484945524F474C595048204430363220),
  (0x130C5, 0x454759505449414E20484945524F474C595048204430363320),
  (0x130C6, 0x454759505449414E20484945524F474C595048204430363420),
  (0x130C7, 0x454759505449414E20484945524F474C595048204430363520),
  (0x130C8, 0x454759505449414E20484945524F474C595048204430363620),
  (0x130C9, 0x454759505449414E20484945524F474C595048204430363720),
  (0x130CA, 0x454759505449414E20484945524F474C59504820443036374120),
  (0x130CB, 0x454759505449414E20484945524F474C59504820443036374220),
  (0x130CC, 0x454759505449414E20484945524F474C59504820443036374320),
  (0x130CD, 0x454759505449414E20484945524F474C59504820443036374420),
  (0x130CE, 0x454759505449414E20484945524F474C59504820443036374520),
  (0x130CF, 0x454759505449414E20484945524F474C59504820443036374620),
  (0x130D0, 0x454759505449414E20484945524F474C59504820443036374720),
  (0x130D1, 0x454759505449414E20484945524F474C59504820443036374820),
  (0x130D2, 0x454759505449414E20484945524F474C595048204530303120),
  (0x130D3, 0x454759505449414E20484945524F474C595048204530303220),
  (0x130D4, 0x454759505449414E20484945524F474C595048204530303320),
  (0x130D5, 0x454759505449414E20484945524F474C595048204530303420),
  (0x130D6, 0x454759505449414E20484945524F474C595048204530303520),
  (0x130D7, 0x454759505449414E20484945524F474C595048204530303620),
  (0x130D8, 0x454759505449414E20484945524F474C595048204530303720),
  (0x130D9, 0x454759505449414E20484945524F474C595048204530303820),
  (0x130DA, 0x454759505449414E20484945524F474C59504820453030384120),
  (0x130DB, 0x454759505449414E20484945524F474C595048204530303920),
  (0x130DC, 0x454759505449414E20484945524F474C59504820453030394120),
  (0x130DD, 0x454759505449414E20484945524F474C595048204530313020),
  (0x130DE, 0x454759505449414E20484945524F474C595048204530313120),
  (0x130DF, 0x454759505449414E20484945524F474C595048204530313220),
  (0x130E0, 0x454759505449414E20484945524F474C595048204530313320),
  (0x130E1, 0x454759505449414E20484945524F474C595048204530313420),
  (0x130E2, 0x454759505449414E20484945524F474C595048204530313520),
  (0x130E3, 0x454759505449414E20484945524F474C595048204530313620),
  (0x130E4, 0x454759505449414E20484945524F474C59504820453031364120),
  (0x130E5, 0x454759505449414E20484945524F474C595048204530313720),
  (0x130E6, 0x454759505449414E20484945524F474C59504820453031374120),
  (0x130E7, 0x454759505449414E20484945524F474C595048204530313820),
  (0x130E8, 0x454759505449414E20484945524F474C595048204530313920),
  (0x130E9, 0x454759505449414E20484945524F474C595048204530323020),
  (0x130EA, 0x454759505449414E20484945524F474C59504820453032304120),
  (0x130EB, 0x454759505449414E20484945524F474C595048204530323120),
  (0x130EC, 0x454759505449414E20484945524F474C595048204530323220),
  (0x130ED, 0x454759505449414E20484945524F474C595048204530323320),
  (0x130EE, 0x454759505449414E20484945524F474C595048204530323420)]
def names_343 : List (Nat × Nat) := [
  (0x130EF, 0x454759505449414E20484945524F474C595048204530323520),
  (0x130F0, 0x454759505449414E20484945524F474C595048204530323620),
  (0x130F1, 0x454759505449414E20484945524F474C595048204530323720),
  (0x130F2, 0x454759505449414E20484945524F474C595048204530323820),
  (0x130F3, 0x454759505449414E20484945524F474C59504820453032384120),
  (0x130F4, 0x454759505449414E20484945524F474C595048204530323920),
  (0x130F5, 0x454759505449414E20484945524F474C595048204530333020),
  (0x130F6, 0x454759505449414E20484945524F474C595048204530333120),
  (0x130F7, 0x454759505449414E20484945524F474C595048204530333220),
  (0x130F8, 0x454759505449414E20484945524F474C595048204530333320),
  (0x130F9, 0x454759505449414E20484945524F474C595048204530333420),
  (0x130FA, 0x454759505449414E20484945524F474C59504820453033344120),
  (0x130FB, 0x454759505449414E20484945524F474C595048204530333620),
  (0x130FC, 0x454759505449414E20484945524F474C595048204530333720),
  (0x130FD, 0x454759505449414E20484945524F474C595048204530333820),
  (0x130FE, 0x454759505449414E20484945524F474C595048204630303120),
  (0x130FF, 0x454759505449414E20484945524F474C59504820463030314120),
  (0x13100, 0x454759505449414E20484945524F474C595048204630303220),
  (0x13101, 0x454759505449414E20484945524F474C595048204630303320),
  (0x13102, 0x454759505449414E20484945524F474C595048204630303420),
  (0x13103, 0x454759505449414E20484945524F474C595048204630303520),
  (0x13104, 0x454759505449414E20484945524F474C595048204630303620),
  (0x13105, 0x454759505449414E20484945524F474C595048204630303720),
  (0x13106, 0x454759505449414E20484945524F474C595048204630303820),
  (0x13107, 0x454759505449414E20484945524F474C595048204630303920),
  (0x13108, 0x454759505449414E20484945524F474C595048204630313020),
  (0x13109, 0x454759505449414E20484945524F474C595048204630313120),
  (0x1310A, 0x454759505449414E20484945524F474C595048204630313220),
  (0x1310B, 0x454759505449414E20484945524F474C595048204630313320),
  (0x1310C, 0x454759505449414E20484945524F474C59504820463031334120),
  (0x1310D, 0x454759505449414E20484945524F474C595048204630313420),
  (0x1310E, 0x454759505449414E20484945524F474C595048204630313520),
  (0x1310F, 0x454759505449414E20484945524F474C595048204630313620),
  (0x13110, 0x454759505449414E20484945524F474C595048204630313720),
  (0x13111, 0x454759505449414E20484945524F474C595048204630313820),
  (0x13112, 0x454759505449414E20484945524F474C595048204630313920),
  (0x13113, 0x454759505449414E20484945524F474C595048204630323020),
  (0x13114, 0x454759505449414E20484945524F474C595048204630323120),
  (0x13115, 0x454759505449414E20484945524F474C59504820463032314120),
  (0x13116, 0x454759505449414E20484945524F474C595048204630323220),
  (0x13117, 0x454759505449414E20484945524F474C595048204630323320),
  (0x13118, 0x454759505449414E20484945524F474C595048204630323420),
  (0x13119, 0x454759505449414E20484945524F474C595048204630323520),
  (0x1311A, 0x454759505449414E20484945524F474C595048204630323620),
  (0x1311B, 0x454759505449414E20484945524F474C595048204630323720),
  (0x1311C, 0x454759505449414E20484945524F474C595048204630323820),
  (0x1311D, 0x454759505449414E20484945524F474C595048204630323920),
  (0x1311E, 0x454759505449414E20484945524F474C595048204630333020),
  (0x1311F, 0x454759505449414E20484945524F474C595048204630333120),
  (0x13120, 0x454759505449414E20484945524F474C59504820463033314120),
  (0x13121, 0x454759505449414E20484945524F474C595048204630333220),
  (0x13122, 0x454759505449414E20484945524F474C595048204630333320),
  (0x13123, 0x454759505449414E20484945524F474C595048204630333420),
  (0x13124, 0x454759505449414E20484945524F474C595048204630333520),
  (0x13125, 0x454759505449414E20484945524F474C595048204630333620),
  (0x13126, 0x454759505449414E20484945524F474C595048204630333720),
  (0x13127, 0x454759505449414E20484945524F474C59504820463033374120),
  (0x13128, 0x454759505449414E20484945524F474C595048204630333820),
  (0x13129, 0x454759505449414E20484945524F474C59504820463033384120),
  (0x1312A, 0x454759505449414E20484945524F474C595048204630333920),
  (0x1312B, 0x454759505449414E20484945524F474C595048204630343020),
  (0x1312C, 0x454759505449414E20484945524F474C595048204630343120),
  (0x1312D, 0x454759505449414E20484945524F474C595048204630343220),
  (0x1312E, 0x454759505449414E20484945524F474C595048204630343320)]
def names_344 : List (Nat × Nat) := [
  (0x1312F, 0x454759505449414E20484945524F474C595048204630343420),
  (0x13130, 0x454759505449414E20484945524F474C595048204630343520),
  (0x13131, 0x454759505449414E20484945524F474C59504820463034354120),
  (0x13132, 0x454759505449414E20484945524F474C595048204630343620),
  (0x13133, 0x454759505449414E20484945524F474C59504820463034364120),
  (0x13134, 0x454759505449414E20484945524F474C595048204630343720),
  (0x13135, 0x454759505449414E20484945524F474C59504820463034374120),
  (0x13136, 0x454759505449414E20484945524F474C595048204630343820),
  (0x13137, 0x454759505449414E20484945524F474C595048204630343920),
  (0x13138, 0x454759505449414E20484945524F474C595048204630353020),
  (0x13139, 0x454759505449414E20484945524F474C595048204630353120),
  (0x1313A, 0x454759505449414E20484945524F474C59504820463035314120),
  (0x1313B, 0x454759505449414E20484945524F474C59504820463035314220),
  (0x1313C, 0x454759505449414E20484945524F474C59504820463035314320),
  (0x1313D, 0x454759505449414E20484945524F474C595048204630353220),
  (0x1313E, 0x454759505449414E20484945524F474C595048204630353320),
  (0x1313F, 0x454759505449414E20484945524F474C595048204730303120),
  (0x13140, 0x454759505449414E20484945524F474C595048204730303220),
  (0x13141, 0x454759505449414E20484945524F474C595048204730303320),
  (0x13142, 0x454759505449414E20484945524F474C595048204730303420),
  (0x13143, 0x454759505449414E20484945524F474C595048204730303520),
  (0x13144, 0x454759505449414E20484945524F474C595048204730303620),
  (0x13145, 0x454759505449414E20484945524F474C59504820473030364120),
  (0x13146, 0x454759505449414E20484945524F474C595048204730303720),
  (0x13147, 0x454759505449414E20484945524F474C59504820473030374120),
  (0x13148, 0x454759505449414E20484945524F474C59504820473030374220),
  (0x13149, 0x454759505449414E20484945524F474C595048204730303820),
  (0x1314A, 0x454759505449414E20484945524F474C595048204730303920),
  (0x1314B, 0x454759505449414E20484945524F474C595048204730313020),
  (0x1314C, 0x454759505449414E20484945524F474C595048204730313120),
  (0x1314D, 0x454759505449414E20484945524F474C59504820473031314120),
  (0x1314E, 0x454759505449414E20484945524F474C595048204730313220),
  (0x1314F, 0x454759505449414E20484945524F474C595048204730313320),
  (0x13150, 0x454759505449414E20484945524F474C595048204730313420),
  (0x13151, 0x454759505449414E20484945524F474C595048204730313520),
  (0x13152, 0x454759505449414E20484945524F474C595048204730313620),
  (0x13153, 0x454759505449414E20484945524F474C595048204730313720),
  (0x13154, 0x454759505449414E20484945524F474C595048204730313820),
  (0x13155, 0x454759505449414E20484945524F474C595048204730313920),
  (0x13156, 0x454759505449414E20484945524F474C595048204730323020),
  (0x13157, 0x454759505449414E20484945524F474C59504820473032304120),
  (0x13158, 0x454759505449414E20484945524F474C595048204730323120),
  (0x13159, 0x454759505449414E20484945524F474C595048204730323220),
  (0x1315A, 0x454759505449414E20484945524F474C595048204730323320),
  (0x1315B, 0x454759505449414E20484945524F474C595048204730323420),
  (0x1315C, 0x454759505449414E20484945524F474C595048204730323520),
  (0x1315D, 0x454759505449414E20484945524F474C595048204730323620),
  (0x1315E, 0x454759505449414E20484945524F474C59504820473032364120),
  (0x1315F, 0x454759505449414E20484945524F474C595048204730323720),
  (0x13160, 0x454759505449414E20484945524F474C595048204730323820),
  (0x13161, 0x454759505449414E20484945524F474C595048204730323920),
  (0x13162, 0x454759505449414E20484945524F474C595048204730333020),
  (0x13163, 0x454759505449414E20484945524F474C595048204730333120),
  (0x13164, 0x454759505449414E20484945524F474C595048204730333220),
  (0x13165, 0x454759505449414E20484945524F474C595048204730333320),
  (0x13166, 0x454759505449414E20484945524F474C595048204730333420),
  (0x13167, 0x454759505449414E20484945524F474C595048204730333520),
  (0x13168, 0x454759505449414E20484945524F474C595048204730333620),
  (0x13169, 0x454759505449414E20484945524F474C59504820473033364120),
  (0x1316A, 0x454759505449414E20484945524F474C595048204730333720),
  (0x1316B, 0x454759505449414E20484945524F474C59504820473033374120),
  (0x1316C, 0x454759505449414E20484945524F474C595048204730333820),
  (0x1316D, 0x454759505449414E20484945524F474C595048204730333920),
  (0x1316E, 0x454759505449414E20484945524F474C595048204730343020)]
def names_345 : List (Nat × Nat) := [
  (0x1316F, 0x454759505449414E20484945524F474C595048204730343120),
  (0x13170, 0x454759505449414E20484945524F474C595048204730343220),
  (0x13171, 0x454759505449414E20484945524F474C595048204730343320),
  (0x13172, 0x454759505449414E20484945524F474C59504820473034334120),
  (0x13173, 0x454759505449414E20484945524F474C595048204730343420),
  (0x13174, 0x454759505449414E20484945524F474C595048204730343520),
  (0x13175, 0x454759505449414E20484945524F474C59504820473034354120),
  (0x13176, 0x454759505449414E20484945524F474C595048204730343620),
  (0x13177, 0x454759505449414E20484945524F474C595048204730343720),
  (0x13178, 0x454759505449414E20484945524F474C595048204730343820),
  (0x13179, 0x454759505449414E20484945524F474C595048204730343920),
  (0x1317A, 0x454759505449414E20484945524F474C595048204730353020),
  (0x1317B, 0x454759505449414E20484945524F474C595048204730353120),
  (0x1317C, 0x454759505449414E20484945524F474C595048204730353220),
  (0x1317D, 0x454759505449414E20484945524F474C595048204730353320),
  (0x1317E, 0x454759505449414E20484945524F474C595048204730353420),
  (0x1317F, 0x454759505449414E20484945524F474C595048204830303120),
  (0x13180, 0x454759505449414E20484945524F474C595048204830303220),
  (0x13181, 0x454759505449414E20484945524F474C595048204830303320),
  (0x13182, 0x454759505449414E20484945524F474C595048204830303420),
  (0x13183, 0x454759505449414E20484945524F474C595048204830303520),
  (0x13184, 0x454759505449414E20484945524F474C595048204830303620),
  (0x13185, 0x454759505449414E20484945524F474C59504820483030364120),
  (0x13186, 0x454759505449414E20484945524F474C595048204830303720),
  (0x13187, 0x454759505449414E20484945524F474C595048204830303820),
  (0x13188, 0x454759505449414E20484945524F474C595048204930303120),
  (0x13189, 0x454759505449414E20484945524F474C595048204930303220),
  (0x1318A, 0x454759505449414E20484945524F474C595048204930303320),
  (0x1318B, 0x454759505449414E20484945524F474C595048204930303420),
  (0x1318C, 0x454759505449414E20484945524F474C595048204930303520),
  (0x1318D, 0x454759505449414E20484945524F474C59504820493030354120),
  (0x1318E, 0x454759505449414E20484945524F474C595048204930303620),
  (0x1318F, 0x454759505449414E20484945524F474C595048204930303720),
  (0x13190, 0x454759505449414E20484945524F474C595048204930303820),
  (0x13191, 0x454759505449414E20484945524F474C595048204930303920),
  (0x13192, 0x454759505449414E20484945524F474C59504820493030394120),
  (0x13193, 0x454759505449414E20484945524F474C595048204930313020),
  (0x13194, 0x454759505449414E20484945524F474C59504820493031304120),
  (0x13195, 0x454759505449414E20484945524F474C595048204930313120),
  (0x13196, 0x454759505449414E20484945524F474C59504820493031314120),
  (0x13197, 0x454759505449414E20484945524F474C595048204930313220),
  (0x13198, 0x454759505449414E20484945524F474C595048204930313320),
  (0x13199, 0x454759505449414E20484945524F474C595048204930313420),
  (0x1319A, 0x454759505449414E20484945524F474C595048204930313520),
  (0x1319B, 0x454759505449414E20484945524F474C595048204B30303120),
  (0x1319C, 0x454759505449414E20484945524F474C595048204B30303220),
  (0x1319D, 0x454759505449414E20484945524F474C595048204B30303320),
  (0x1319E, 0x454759505449414E20484945524F474C595048204B30303420),
  (0x1319F, 0x454759505449414E20484945524F474C595048204B30303520),
  (0x131A0, 0x454759505449414E20484945524F474C595048204B30303620),
  (0x131A1, 0x454759505449414E20484945524F474C595048204B30303720),
  (0x131A2, 0x454759505449414E20484945524F474C595048204B30303820),
  (0x131A3, 0x454759505449414E20484945524F474C595048204C30303120),
  (0x131A4, 0x454759505449414E20484945524F474C595048204C30303220),
  (0x131A5, 0x454759505449414E20484945524F474C595048204C3030324120),
  (0x131A6, 0x454759505449414E20484945524F474C595048204C30303320),
  (0x131A7, 0x454759505449414E20484945524F474C595048204C30303420),
  (0x131A8, 0x454759505449414E20484945524F474C595048204C30303520),
  (0x131A9, 0x454759505449414E20484945524F474C595048204C30303620),
  (0x131AA, 0x454759505449414E20484945524F474C595048204C3030364120),
  (0x131AB, 0x454759505449414E20484945524F474C595048204C30303720),
  (0x131AC, 0x454759505449414E20484945524F474C595048204C30303820),
  (0x131AD, 0x454759505449414E20484945524F474C595048204D30303120),
  (0x131AE, 0x454759505449414E20484945524F474C595048204D3030314120)]
def names_346 : List (Nat × Nat) := [
  (0x131AF, 0x454759505449414E20484945524F474C595048204D3030314220),
  (0x131B0, 0x454759505449414E20484945524F474C595048204D30303220),
  (0x131B1, 0x454759505449414E20484945524F474C595048204D30303320),
  (0x131B2, 0x454759505449414E20484945524F474C595048204D3030334120),
  (0x131B3, 0x454759505449414E20484945524F474C595048204D30303420),
  (0x131B4, 0x454759505449414E20484945524F474C595048204D30303520),
  (0x131B5, 0x454759505449414E20484945524F474C595048204D30303620),
  (0x131B6, 0x454759505449414E20484945524F474C595048204D30303720),
  (0x131B7, 0x454759505449414E20484945524F474C595048204D30303820),
  (0x131B8, 0x454759505449414E20484945524F474C595048204D30303920),
  (0x131B9, 0x454759505449414E20484945524F474C595048204D30313020),
  (0x131BA, 0x454759505449414E20484945524F474C595048204D3031304120),
  (0x131BB, 0x454759505449414E20484945524F474C595048204D30313120),
  (0x131BC, 0x454759505449414E20484945524F474C595048204D30313220),
  (0x131BD, 0x454759505449414E20484945524F474C595048204D3031324120),
  (0x131BE, 0x454759505449414E20484945524F474C595048204D3031324220),
  (0x131BF, 0x454759505449414E20484945524F474C595048204D3031324320),
  (0x131C0, 0x454759505449414E20484945524F474C595048204D3031324420),
  (0x131C1, 0x454759505449414E20484945524F474C595048204D3031324520),
  (0x131C2, 0x454759505449414E20484945524F474C595048204D3031324620),
  (0x131C3, 0x454759505449414E20484945524F474C595048204D3031324720),
  (0x131C4, 0x454759505449414E20484945524F474C595048204D3031324820),
  (0x131C5, 0x454759505449414E20484945524F474C595048204D30313320),
  (0x131C6, 0x454759505449414E20484945524F474C595048204D30313420),
  (0x131C7, 0x454759505449414E20484945524F474C595048204D30313520),
  (0x131C8, 0x454759505449414E20484945524F474C595048204D3031354120),
  (0x131C9, 0x454759505449414E20484945524F474C595048204D30313620),
  (0x131CA, 0x454759505449414E20484945524F474C595048204D3031364120),
  (0x131CB, 0x454759505449414E20484945524F474C595048204D30313720),
  (0x131CC, 0x454759505449414E20484945524F474C595048204D3031374120),
  (0x131CD, 0x454759505449414E20484945524F474C595048204D30313820),
  (0x131CE, 0x454759505449414E20484945524F474C595048204D30313920),
  (0x131CF, 0x454759505449414E20484945524F474C595048204D30323020),
  (0x131D0, 0x454759505449414E20484945524F474C595048204D30323120),
  (0x131D1, 0x454759505449414E20484945524F474C595048204D30323220),
  (0x131D2, 0x454759505449414E20484945524F474C595048204D3032324120),
  (0x131D3, 0x454759505449414E20484945524F474C595048204D30323320),
  (0x131D4, 0x454759505449414E20484945524F474C595048204D30323420),
  (0x131D5, 0x454759505449414E20484945524F474C595048204D3032344120),
  (0x131D6, 0x454759505449414E20484945524F474C595048204D30323520),
  (0x131D7, 0x454759505449414E20484945524F474C595048204D30323620),
  (0x131D8, 0x454759505449414E20484945524F474C595048204D30323720),
  (0x131D9, 0x454759505449414E20484945524F474C595048204D30323820),
  (0x131DA, 0x454759505449414E20484945524F474C595048204D3032384120),
  (0x131DB, 0x454759505449414E20484945524F474C595048204D30323920),
  (0x131DC, 0x454759505449414E20484945524F474C595048204D30333020),
  (0x131DD, 0x454759505449414E20484945524F474C595048204D30333120),
  (0x131DE, 0x454759505449414E20484945524F474C595048204D3033314120),
  (0x131DF, 0x454759505449414E20484945524F474C595048204D30333220),
  (0x131E0, 0x454759505449414E20484945524F474C595048204D30333320),
  (0x131E1, 0x454759505449414E20484945524F474C595048204D3033334120),
  (0x131E2, 0x454759505449414E20484945524F474C595048204D3033334220),
  (0x131E3, 0x454759505449414E20484945524F474C595048204D30333420),
  (0x131E4, 0x454759505449414E20484945524F474C595048204D30333520),
  (0x131E5, 0x454759505449414E20484945524F474C595048204D30333620),
  (0x131E6, 0x454759505449414E20484945524F474C595048204D30333720),
  (0x131E7, 0x454759505449414E20484945524F474C595048204D30333820),
  (0x131E8, 0x454759505449414E20484945524F474C595048204D30333920),
  (0x131E9, 0x454759505449414E20484945524F474C595048204D30343020),
  (0x131EA, 0x454759505449414E20484945524F474C595048204D3034304120),
  (0x131EB, 0x454759505449414E20484945524F474C595048204D30343120),
  (0x131EC, 0x454759505449414E20484945524F474C595048204D30343220),
  (0x131ED, 0x454759505449414E20484945524F474C595048204D30343320),
  (0x131EE, 0x454759505449414E20484945524F474C595048204D30343420)]
def names_347 : List (Nat × Nat) := [
  (0x131EF, 0x454759505449414E20484945524F474C595048204E30303120),
  (0x131F0, 0x454759505449414E20484945524F474C595048204E30303220),
  (0x131F1, 0x454759505449414E20484945524F474C595048204E30303320),
  (0x131F2, 0x454759505449414E20484945524F474C595048204E30303420),
  (0x131F3, 0x454759505449414E20484945524F474C595048204E30303520),
  (0x131F4, 0x454759505449414E20484945524F474C595048204E30303620),
  (0x131F5, 0x454759505449414E20484945524F474C595048204E30303720),
  (0x131F6, 0x454759505449414E20484945524F474C595048204E30303820),
  (0x131F7, 0x454759505449414E20484945524F474C595048204E30303920),
  (0x131F8, 0x454759505449414E20484945524F474C595048204E30313020),
  (0x131F9, 0x454759505449414E20484945524F474C595048204E30313120),
  (0x131FA, 0x454759505449414E20484945524F474C595048204E30313220),
  (0x131FB, 0x454759505449414E20484945524F474C595048204E30313320),
  (0x131FC, 0x454759505449414E20484945524F474C595048204E30313420),
  (0x131FD, 0x454759505449414E20484945524F474C595048204E30313520),
  (0x131FE, 0x454759505449414E20484945524F474C595048204E30313620),
  (0x131FF, 0x454759505449414E20484945524F474C595048204E30313720),
  (0x13200, 0x454759505449414E20484945524F474C595048204E30313820),
  (0x13201, 0x454759505449414E20484945524F474C595048204E3031384120),
  (0x13202, 0x454759505449414E20484945524F474C595048204E3031384220),
  (0x13203, 0x454759505449414E20484945524F474C595048204E30313920),
  (0x13204, 0x454759505449414E20484945524F474C595048204E30323020),
  (0x13205, 0x454759505449414E20484945524F474C595048204E30323120),
  (0x13206, 0x454759505449414E20484945524F474C595048204E30323220),
  (0x13207, 0x454759505449414E20484945524F474C595048204E30323320),
  (0x13208, 0x454759505449414E20484945524F474C595048204E30323420),
  (0x13209, 0x454759505449414E20484945524F474C595048204E30323520),
  (0x1320A, 0x454759505449414E20484945524F474C595048204E3032354120),
  (0x1320B, 0x454759505449414E20484945524F474C595048204E30323620),
  (0x1320C, 0x454759505449414E20484945524F474C595048204E30323720),
  (0x1320D, 0x454759505449414E20484945524F474C595048204E30323820),
  (0x1320E, 0x454759505449414E20484945524F474C595048204E30323920),
  (0x1320F, 0x454759505449414E20484945524F474C595048204E30333020),
  (0x13210, 0x454759505449414E20484945524F474C595048204E30333120),
  (0x13211, 0x454759505449414E20484945524F474C595048204E30333220),
  (0x13212, 0x454759505449414E20484945524F474C595048204E30333320),
  (0x13213, 0x454759505449414E20484945524F474C595048204E3033334120),
  (0x13214, 0x454759505449414E20484945524F474C595048204E30333420),
  (0x13215, 0x454759505449414E20484945524F474C595048204E3033344120),
  (0x13216, 0x454759505449414E20484945524F474C595048204E30333520),
  (0x13217, 0x454759505449414E20484945524F474C595048204E3033354120),
  (0x13218, 0x454759505449414E20484945524F474C595048204E30333620),
  (0x13219, 0x454759505449414E20484945524F474C595048204E30333720),
  (0x1321A, 0x454759505449414E20484945524F474C595048204E3033374120),
  (0x1321B, 0x454759505449414E20484945524F474C595048204E30333820),
  (0x1321C, 0x454759505449414E20484945524F474C595048204E30333920),
  (0x1321D, 0x454759505449414E20484945524F474C595048204E30343020),
  (0x1321E, 0x454759505449414E20484945524F474C595048204E30343120),
  (0x1321F, 0x454759505449414E20484945524F474C595048204E30343220),
  (0x13220, 0x454759505449414E20484945524F474C595048204E4C30303120),
  (0x13221, 0x454759505449414E20484945524F474C595048204E4C30303220),
  (0x13222, 0x454759505449414E20484945524F474C595048204E4C30303320),
  (0x13223, 0x454759505449414E20484945524F474C595048204E4C30303420),
  (0x13224, 0x454759505449414E20484945524F474C595048204E4C30303520),
  (0x13225, 0x454759505449414E20484945524F474C595048204E4C3030354120),
  (0x13226, 0x454759505449414E20484945524F474C595048204E4C30303620),
  (0x13227, 0x454759505449414E20484945524F474C595048204E4C30303720),
  (0x13228, 0x454759505449414E20484945524F474C595048204E4C30303820),
  (0x13229, 0x454759505449414E20484945524F474C595048204E4C30303920),
  (0x1322A, 0x454759505449414E20484945524F474C595048204E4C30313020),
  (0x1322B, 0x454759505449414E20484945524F474C595048204E4C30313120),
  (0x1322C, 0x454759505449414E20484945524F474C595048204E4C30313220),
  (0x1322D, 0x454759505449414E20484945524F474C595048204E4C30313320),
  (0x1322E, 0x454759505449414E20484945524F474C595048204E4C30313420)]
def names_348 : List (Nat × Nat) := [
  (0x1322F, 0x454759505449414E20484945524F474C595048204E4C30313520),
  (0x13230, 0x454759505449414E20484945524F474C595048204E4C30313620),
  (0x13231, 0x454759505449414E20484945524F474C595048204E4C30313720),
  (0x13232, 0x454759505449414E20484945524F474C595048204E4C3031374120),
  (0x13233, 0x454759505449414E20484945524F474C595048204E4C30313820),
  (0x13234, 0x454759505449414E20484945524F474C595048204E4C30313920),
  (0x13235, 0x454759505449414E20484945524F474C595048204E4C30323020),
  (0x13236, 0x454759505449414E20484945524F474C595048204E5530303120),
  (0x13237, 0x454759505449414E20484945524F474C595048204E5530303220),
  (0x13238, 0x454759505449414E20484945524F474C595048204E5530303320),
  (0x13239, 0x454759505449414E20484945524F474C595048204E5530303420),
  (0x1323A, 0x454759505449414E20484945524F474C595048204E5530303520),
  (0x1323B, 0x454759505449414E20484945524F474C595048204E5530303620),
  (0x1323C, 0x454759505449414E20484945524F474C595048204E5530303720),
  (0x1323D, 0x454759505449414E20484945524F474C595048204E5530303820),
  (0x1323E, 0x454759505449414E20484945524F474C595048204E5530303920),
  (0x1323F, 0x454759505449414E20484945524F474C595048204E5530313020),
  (0x13240, 0x454759505449414E20484945524F474C595048204E553031304120),
  (0x13241, 0x454759505449414E20484945524F474C595048204E5530313120),
  (0x13242, 0x454759505449414E20484945524F474C595048204E553031314120),
  (0x13243, 0x454759505449414E20484945524F474C595048204E5530313220),
  (0x13244, 0x454759505449414E20484945524F474C595048204E5530313320),
  (0x13245, 0x454759505449414E20484945524F474C595048204E5530313420),
  (0x13246, 0x454759505449414E20484945524F474C595048204E5530313520),
  (0x13247, 0x454759505449414E20484945524F474C595048204E5530313620),
  (0x13248, 0x454759505449414E20484945524F474C595048204E5530313720),
  (0x13249, 0x454759505449414E20484945524F474C595048204E5530313820),
  (0x1324A, 0x454759505449414E20484945524F474C595048204E553031384120),
  (0x1324B, 0x454759505449414E20484945524F474C595048204E5530313920),
  (0x1324C, 0x454759505449414E20484945524F474C595048204E5530323020),
  (0x1324D, 0x454759505449414E20484945524F474C595048204E5530323120),
  (0x1324E, 0x454759505449414E20484945524F474C595048204E5530323220),
  (0x1324F, 0x454759505449414E20484945524F474C595048204E553032324120),
  (0x13250, 0x454759505449414E20484945524F474C595048204F30303120),
  (0x13251, 0x454759505449414E20484945524F474C595048204F3030314120),
  (0x13252, 0x454759505449414E20484945524F474C595048204F30303220),
  (0x13253, 0x454759505449414E20484945524F474C595048204F30303320),
  (0x13254, 0x454759505449414E20484945524F474C595048204F30303420),
  (0x13255, 0x454759505449414E20484945524F474C595048204F30303520),
  (0x13256, 0x454759505449414E20484945524F474C595048204F3030354120),
  (0x13257, 0x454759505449414E20484945524F474C595048204F30303620),
  (0x13258, 0x454759505449414E20484945524F474C595048204F3030364120),
  (0x13259, 0x454759505449414E20484945524F474C595048204F3030364220),
  (0x1325A, 0x454759505449414E20484945524F474C595048204F3030364320),
  (0x1325B, 0x454759505449414E20484945524F474C595048204F3030364420),
  (0x1325C, 0x454759505449414E20484945524F474C595048204F3030364520),
  (0x1325D, 0x454759505449414E20484945524F474C595048204F3030364620),
  (0x1325E, 0x454759505449414E20484945524F474C595048204F30303720),
  (0x1325F, 0x454759505449414E20484945524F474C595048204F30303820),
  (0x13260, 0x454759505449414E20484945524F474C595048204F30303920),
  (0x13261, 0x454759505449414E20484945524F474C595048204F30313020),
  (0x13262, 0x454759505449414E20484945524F474C595048204F3031304120),
  (0x13263, 0x454759505449414E20484945524F474C595048204F3031304220),
  (0x13264, 0x454759505449414E20484945524F474C595048204F3031304320),
  (0x13265, 0x454759505449414E20484945524F474C595048204F30313120),
  (0x13266, 0x454759505449414E20484945524F474C595048204F30313220),
  (0x13267, 0x454759505449414E20484945524F474C595048204F30313320),
  (0x13268, 0x454759505449414E20484945524F474C595048204F30313420),
  (0x13269, 0x454759505449414E20484945524F474C595048204F30313520),
  (0x1326A, 0x454759505449414E20484945524F474C595048204F30313620),
  (0x1326B, 0x454759505449414E20484945524F474C595048204F30313720),
  (0x1326C, 0x454759505449414E20484945524F474C595048204F30313820),
  (0x1326D, 0x454759505449414E20484945524F474C595048204F30313920),
  (0x1326E, 0x454759505449414E20484945524F474C595048204F3031394120)]
def names_349 : List (Nat × Nat) := [
  (0x1326F, 0x454759505449414E20484945524F474C595048204F30323020),
  (0x13270, 0x454759505449414E20484945524F474C595048204F3032304120),
  (0x13271, 0x454759505449414E20484945524F474C595048204F30323120),
  (0x13272, 0x454759505449414E20484945524F474C595048204F30323220),
  (0x13273, 0x454759505449414E20484945524F474C595048204F30323320),
  (0x13274, 0x454759505449414E20484945524F474C595048204F30323420),
  (0x13275, 0x454759505449414E20484945524F474C595048204F3032344120),
  (0x13276, 0x454759505449414E20484945524F474C595048204F30323520),
  (0x13277, 0x454759505449414E20484945524F474C595048204F3032354120),
  (0x13278, 0x454759505449414E20484945524F474C595048204F30323620),
  (0x13279, 0x454759505449414E20484945524F474C595048204F30323720),
  (0x1327A, 0x454759505449414E20484945524F474C595048204F30323820),
  (0x1327B, 0x454759505449414E20484945524F474C595048204F30323920),
  (0x1327C, 0x454759505449414E20484945524F474C595048204F3032394120),
  (0x1327D, 0x454759505449414E20484945524F474C595048204F30333020),
  (0x1327E, 0x454759505449414E20484945524F474C595048204F3033304120),
  (0x1327F, 0x454759505449414E20484945524F474C595048204F30333120),
  (0x13280, 0x454759505449414E20484945524F474C595048204F30333220),
  (0x13281, 0x454759505449414E20484945524F474C595048204F30333320),
  (0x13282, 0x454759505449414E20484945524F474C595048204F3033334120),
  (0x13283, 0x454759505449414E20484945524F474C595048204F30333420),
  (0x13284, 0x454759505449414E20484945524F474C595048204F30333520),
  (0x13285, 0x454759505449414E20484945524F474C595048204F30333620),
  (0x13286, 0x454759505449414E20484945524F474C595048204F3033364120),
  (0x13287, 0x454759505449414E20484945524F474C595048204F3033364220),
  (0x13288, 0x454759505449414E20484945524F474C595048204F3033364320),
  (0x13289, 0x454759505449414E20484945524F474C595048204F3033364420),
  (0x1328A, 0x454759505449414E20484945524F474C595048204F30333720),
  (0x1328B, 0x454759505449414E20484945524F474C595048204F30333820),
  (0x1328C, 0x454759505449414E20484945524F474C595048204F30333920),
  (0x1328D, 0x454759505449414E20484945524F474C595048204F30343020),
  (0x1328E, 0x454759505449414E20484945524F474C595048204F30343120),
  (0x1328F, 0x454759505449414E20484945524F474C595048204F30343220),
  (0x13290, 0x454759505449414E20484945524F474C595048204F30343320),
  (0x13291, 0x454759505449414E20484945524F474C595048204F30343420),
  (0x13292, 0x454759505449414E20484945524F474C595048204F30343520),
  (0x13293, 0x454759505449414E20484945524F474C595048204F30343620),
  (0x13294, 0x454759505449414E20484945524F474C595048204F30343720),
  (0x13295, 0x454759505449414E20484945524F474C595048204F30343820),
  (0x13296, 0x454759505449414E20484945524F474C595048204F30343920),
  (0x13297, 0x454759505449414E20484945524F474C595048204F30353020),
  (0x13298, 0x454759505449414E20484945524F474C595048204F3035304120),
  (0x13299, 0x454759505449414E20484945524F474C595048204F3035304220),
  (0x1329A, 0x454759505449414E20484945524F474C595048204F30353120),
  (0x1329B, 0x454759505449414E20484945524F474C595048205030303120),
  (0x1329C, 0x454759505449414E20484945524F474C59504820503030314120),
  (0x1329D, 0x454759505449414E20484945524F474C595048205030303220),
  (0x1329E, 0x454759505449414E20484945524F474C595048205030303320),
  (0x1329F, 0x454759505449414E20484945524F474C59504820503030334120),
  (0x132A0, 0x454759505449414E20484945524F474C595048205030303420),
  (0x132A1, 0x454759505449414E20484945524F474C595048205030303520),
  (0x132A2, 0x454759505449414E20484945524F474C595048205030303620),
  (0x132A3, 0x454759505449414E20484945524F474C595048205030303720),
  (0x132A4, 0x454759505449414E20484945524F474C595048205030303820),
  (0x132A5, 0x454759505449414E20484945524F474C595048205030303920),
  (0x132A6, 0x454759505449414E20484945524F474C595048205030313020),
  (0x132A7, 0x454759505449414E20484945524F474C595048205030313120),
  (0x132A8, 0x454759505449414E20484945524F474C595048205130303120),
  (0x132A9, 0x454759505449414E20484945524F474C595048205130303220),
  (0x132AA, 0x454759505449414E20484945524F474C595048205130303320),
  (0x132AB, 0x454759505449414E20484945524F474C595048205130303420),
  (0x132AC, 0x454759505449414E20484945524F474C595048205130303520),
  (0x132AD, 0x454759505449414E20484945524F474C595048205130303620),
  (0x132AE, 0x454759505449414E20484945524F474C595048205130303720)]
def names_350 : List (Nat × Nat) := [
  (0x132AF, 0x454759505449414E20484945524F474C595048205230303120),
  (0x132B0, 0x454759505449414E20484945524F474C595048205230303220),
  (0x132B1, 0x454759505449414E20484945524F474C59504820523030324120),
  (0x132B2, 0x454759505449414E20484945524F474C595048205230303320),
  (0x132B3, 0x454759505449414E20484945524F474C59504820523030334120),
  (0x132B4, 0x454759505449414E20484945524F474C59504820523030334220),
  (0x132B5, 0x454759505449414E20484945524F474C595048205230303420),
  (0x132B6, 0x454759505449414E20484945524F474C595048205230303520),
  (0x132B7, 0x454759505449414E20484945524F474C595048205230303620),
  (0x132B8, 0x454759505449414E20484945524F474C595048205230303720),
  (0x132B9, 0x454759505449414E20484945524F474C595048205230303820),
  (0x132BA, 0x454759505449414E20484945524F474C595048205230303920),
  (0x132BB, 0x454759505449414E20484945524F474C595048205230313020),
  (0x132BC, 0x454759505449414E20484945524F474C59504820523031304120),
  (0x132BD, 0x454759505449414E20484945524F474C595048205230313120),
  (0x132BE, 0x454759505449414E20484945524F474C595048205230313220),
  (0x132BF, 0x454759505449414E20484945524F474C595048205230313320),
  (0x132C0, 0x454759505449414E20484945524F474C595048205230313420),
  (0x132C1, 0x454759505449414E20484945524F474C595048205230313520),
  (0x132C2, 0x454759505449414E20484945524F474C595048205230313620),
  (0x132C3, 0x454759505449414E20484945524F474C59504820523031364120),
  (0x132C4, 0x454759505449414E20484945524F474C595048205230313720),
  (0x132C5, 0x454759505449414E20484945524F474C595048205230313820),
  (0x132C6, 0x454759505449414E20484945524F474C595048205230313920),
  (0x132C7, 0x454759505449414E20484945524F474C595048205230323020),
  (0x132C8, 0x454759505449414E20484945524F474C595048205230323120),
  (0x132C9, 0x454759505449414E20484945524F474C595048205230323220),
  (0x132CA, 0x454759505449414E20484945524F474C595048205230323320),
  (0x132CB, 0x454759505449414E20484945524F474C595048205230323420),
  (0x132CC, 0x454759505449414E20484945524F474C595048205230323520),
  (0x132CD, 0x454759505449414E20484945524F474C595048205230323620),
  (0x132CE, 0x454759505449414E20484945524F474C595048205230323720),
  (0x132CF, 0x454759505449414E20484945524F474C595048205230323820),
  (0x132D0, 0x454759505449414E20484945524F474C595048205230323920),
  (0x132D1, 0x454759505449414E20484945524F474C595048205330303120),
  (0x132D2, 0x454759505449414E20484945524F474C595048205330303220),
  (0x132D3, 0x454759505449414E20484945524F474C59504820533030324120),
  (0x132D4, 0x454759505449414E20484945524F474C595048205330303320),
  (0x132D5, 0x454759505449414E20484945524F474C595048205330303420),
  (0x132D6, 0x454759505449414E20484945524F474C595048205330303520),
  (0x132D7, 0x454759505449414E20484945524F474C595048205330303620),
  (0x132D8, 0x454759505449414E20484945524F474C59504820533030364120),
  (0x132D9, 0x454759505449414E20484945524F474C595048205330303720),
  (0x132DA, 0x454759505449414E20484945524F474C595048205330303820),
  (0x132DB, 0x454759505449414E20484945524F474C595048205330303920),
  (0x132DC, 0x454759505449414E20484945524F474C595048205330313020),
  (0x132DD, 0x454759505449414E20484945524F474C595048205330313120),
  (0x132DE, 0x454759505449414E20484945524F474C595048205330313220),
  (0x132DF, 0x454759505449414E20484945524F474C595048205330313320),
  (0x132E0, 0x454759505449414E20484945524F474C595048205330313420),
  (0x132E1, 0x454759505449414E20484945524F474C59504820533031344120),
  (0x132E2, 0x454759505449414E20484945524F474C59504820533031344220),
  (0x132E3, 0x454759505449414E20484945524F474C595048205330313520),
  (0x132E4, 0x454759505449414E20484945524F474C595048205330313620),
  (0x132E5, 0x454759505449414E20484945524F474C595048205330313720),
  (0x132E6, 0x454759505449414E20484945524F474C59504820533031374120),
  (0x132E7, 0x454759505449414E20484945524F474C595048205330313820),
  (0x132E8, 0x454759505449414E20484945524F474C595048205330313920),
  (0x132E9, 0x454759505449414E20484945524F474C595048205330323020),
  (0x132EA, 0x454759505449414E20484945524F474C595048205330323120),
  (0x132EB, 0x454759505449414E20484945524F474C595048205330323220),
  (0x132EC, 0x454759505449414E20484945524F474C595048205330323320),
  (0x132ED, 0x454759505449414E20484945524F474C595048205330323420),
  (0x132EE, 0x454759505449414E20484945524F474C595048205330323520)]
def names_351 : List (Nat × Nat) := [
  (0x132EF, 0x454759505449414E20484945524F474C595048205330323620),
  (0x132F0, 0x454759505449414E20484945524F474C59504820533032364120),
  (0x132F1, 0x454759505449414E20484945524F474C59504820533032364220),
  (0x132F2, 0x454759505449414E20484945524F474C595048205330323720),
  (0x132F3, 0x454759505449414E20484945524F474C595048205330323820),
  (0x132F4, 0x454759505449414E20484945524F474C595048205330323920),
  (0x132F5, 0x454759505449414E20484945524F474C595048205330333020),
  (0x132F6, 0x454759505449414E20484945524F474C595048205330333120),
  (0x132F7, 0x454759505449414E20484945524F474C595048205330333220),
  (0x132F8, 0x454759505449414E20484945524F474C595048205330333320),
  (0x132F9, 0x454759505449414E20484945524F474C595048205330333420),
  (0x132FA, 0x454759505449414E20484945524F474C595048205330333520),
  (0x132FB, 0x454759505449414E20484945524F474C59504820533033354120),
  (0x132FC, 0x454759505449414E20484945524F474C595048205330333620),
  (0x132FD, 0x454759505449414E20484945524F474C595048205330333720),
  (0x132FE, 0x454759505449414E20484945524F474C595048205330333820),
  (0x132FF, 0x454759505449414E20484945524F474C595048205330333920),
  (0x13300, 0x454759505449414E20484945524F474C595048205330343020),
  (0x13301, 0x454759505449414E20484945524F474C595048205330343120),
  (0x13302, 0x454759505449414E20484945524F474C595048205330343220),
  (0x13303, 0x454759505449414E20484945524F474C595048205330343320),
  (0x13304, 0x454759505449414E20484945524F474C595048205330343420),
  (0x13305, 0x454759505449414E20484945524F474C595048205330343520),
  (0x13306, 0x454759505449414E20484945524F474C595048205330343620),
  (0x13307, 0x454759505449414E20484945524F474C595048205430303120),
  (0x13308, 0x454759505449414E20484945524F474C595048205430303220),
  (0x13309, 0x454759505449414E20484945524F474C595048205430303320),
  (0x1330A, 0x454759505449414E20484945524F474C59504820543030334120),
  (0x1330B, 0x454759505449414E20484945524F474C595048205430303420),
  (0x1330C, 0x454759505449414E20484945524F474C595048205430303520),
  (0x1330D, 0x454759505449414E20484945524F474C595048205430303620),
  (0x1330E, 0x454759505449414E20484945524F474C595048205430303720),
  (0x1330F, 0x454759505449414E20484945524F474C59504820543030374120),
  (0x13310, 0x454759505449414E20484945524F474C595048205430303820),
  (0x13311, 0x454759505449414E20484945524F474C59504820543030384120),
  (0x13312, 0x454759505449414E20484945524F474C595048205430303920),
  (0x13313, 0x454759505449414E20484945524F474C59504820543030394120),
  (0x13314, 0x454759505449414E20484945524F474C595048205430313020),
  (0x13315, 0x454759505449414E20484945524F474C595048205430313120),
  (0x13316, 0x454759505449414E20484945524F474C59504820543031314120),
  (0x13317, 0x454759505449414E20484945524F474C595048205430313220),
  (0x13318, 0x454759505449414E20484945524F474C595048205430313320),
  (0x13319, 0x454759505449414E20484945524F474C595048205430313420),
  (0x1331A, 0x454759505449414E20484945524F474C595048205430313520),
  (0x1331B, 0x454759505449414E20484945524F474C595048205430313620),
  (0x1331C, 0x454759505449414E20484945524F474C59504820543031364120),
  (0x1331D, 0x454759505449414E20484945524F474C595048205430313720),
  (0x1331E, 0x454759505449414E20484945524F474C595048205430313820),
  (0x1331F, 0x454759505449414E20484945524F474C595048205430313920),
  (0x13320, 0x454759505449414E20484945524F474C595048205430323020),
  (0x13321, 0x454759505449414E20484945524F474C595048205430323120),
  (0x13322, 0x454759505449414E20484945524F474C595048205430323220),
  (0x13323, 0x454759505449414E20484945524F474C595048205430323320),
  (0x13324, 0x454759505449414E20484945524F474C595048205430323420),
  (0x13325, 0x454759505449414E20484945524F474C595048205430323520),
  (0x13326, 0x454759505449414E20484945524F474C595048205430323620),
  (0x13327, 0x454759505449414E20484945524F474C595048205430323720),
  (0x13328, 0x454759505449414E20484945524F474C595048205430323820),
  (0x13329, 0x454759505449414E20484945524F474C595048205430323920),
  (0x1332A, 0x454759505449414E20484945524F474C595048205430333020),
  (0x1332B, 0x454759505449414E20484945524F474C595048205430333120),
  (0x1332C, 0x454759505449414E20484945524F474C595048205430333220),
  (0x1332D, 0x454759505449414E20484945524F474C59504820543033324120),
  (0x1332E, 0x454759505449414E20484945524F474C595048205430333320)]
def names_352 : List (Nat × Nat) := [
  (0x1332F, 0x454759505449414E20484945524F474C59504820543033334120),
  (0x13330, 0x454759505449414E20484945524F474C595048205430333420),
  (0x13331, 0x454759505449414E20484945524F474C595048205430333520),
  (0x13332, 0x454759505449414E20484945524F474C595048205430333620),
  (0x13333, 0x454759505449414E20484945524F474C595048205530303120),
  (0x13334, 0x454759505449414E20484945524F474C595048205530303220),
  (0x13335, 0x454759505449414E20484945524F474C595048205530303320),
  (0x13336, 0x454759505449414E20484945524F474C595048205530303420),
  (0x13337, 0x454759505449414E20484945524F474C595048205530303520),
  (0x13338, 0x454759505449414E20484945524F474C595048205530303620),
  (0x13339, 0x454759505449414E20484945524F474C59504820553030364120),
  (0x1333A, 0x454759505449414E20484945524F474C59504820553030364220),
  (0x1333B, 0x454759505449414E20484945524F474C595048205530303720),
  (0x1333C, 0x454759505449414E20484945524F474C595048205530303820),
  (0x1333D, 0x454759505449414E20484945524F474C595048205530303920),
  (0x1333E, 0x454759505449414E20484945524F474C595048205530313020),
  (0x1333F, 0x454759505449414E20484945524F474C595048205530313120),
  (0x13340, 0x454759505449414E20484945524F474C595048205530313220),
  (0x13341, 0x454759505449414E20484945524F474C595048205530313320),
  (0x13342, 0x454759505449414E20484945524F474C595048205530313420),
  (0x13343, 0x454759505449414E20484945524F474C595048205530313520),
  (0x13344, 0x454759505449414E20484945524F474C595048205530313620),
  (0x13345, 0x454759505449414E20484945524F474C595048205530313720),
  (0x13346, 0x454759505449414E20484945524F474C595048205530313820),
  (0x13347, 0x454759505449414E20484945524F474C595048205530313920),
  (0x13348, 0x454759505449414E20484945524F474C595048205530323020),
  (0x13349, 0x454759505449414E20484945524F474C595048205530323120),
  (0x1334A, 0x454759505449414E20484945524F474C595048205530323220),
  (0x1334B, 0x454759505449414E20484945524F474C595048205530323320),
  (0x1334C, 0x454759505449414E20484945524F474C59504820553032334120),
  (0x1334D, 0x454759505449414E20484945524F474C595048205530323420),
  (0x1334E, 0x454759505449414E20484945524F474C595048205530323520),
  (0x1334F, 0x454759505449414E20484945524F474C595048205530323620),
  (0x13350, 0x454759505449414E20484945524F474C595048205530323720),
  (0x13351, 0x454759505449414E20484945524F474C595048205530323820),
  (0x13352, 0x454759505449414E20484945524F474C595048205530323920),
  (0x13353, 0x454759505449414E20484945524F474C59504820553032394120),
  (0x13354, 0x454759505449414E20484945524F474C595048205530333020),
  (0x13355, 0x454759505449414E20484945524F474C595048205530333120),
  (0x13356, 0x454759505449414E20484945524F474C595048205530333220),
  (0x13357, 0x454759505449414E20484945524F474C59504820553033324120),
  (0x13358, 0x454759505449414E20484945524F474C595048205530333320),
  (0x13359, 0x454759505449414E20484945524F474C595048205530333420),
  (0x1335A, 0x454759505449414E20484945524F474C595048205530333520),
  (0x1335B, 0x454759505449414E20484945524F474C595048205530333620),
  (0x1335C, 0x454759505449414E20484945524F474C595048205530333720),
  (0x1335D, 0x454759505449414E20484945524F474C595048205530333820),
  (0x1335E, 0x454759505449414E20484945524F474C595048205530333920),
  (0x1335F, 0x454759505449414E20484945524F474C595048205530343020),
  (0x13360, 0x454759505449414E20484945524F474C595048205530343120),
  (0x13361, 0x454759505449414E20484945524F474C595048205530343220),
  (0x13362, 0x454759505449414E20484945524F474C595048205630303120),
  (0x13363, 0x454759505449414E20484945524F474C59504820563030314120),
  (0x13364, 0x454759505449414E20484945524F474C59504820563030314220),
  (0x13365, 0x454759505449414E20484945524F474C59504820563030314320),
  (0x13366, 0x454759505449414E20484945524F474C59504820563030314420),
  (0x13367, 0x454759505449414E20484945524F474C59504820563030314520),
  (0x13368, 0x454759505449414E20484945524F474C59504820563030314620),
  (0x13369, 0x454759505449414E20484945524F474C59504820563030314720),
  (0x1336A, 0x454759505449414E20484945524F474C59504820563030314820),
  (0x1336B, 0x454759505449414E20484945524F474C59504820563030314920),
  (0x1336C, 0x454759505449414E20484945524F474C595048205630303220),
  (0x1336D, 0x454759505449414E20484945524F474C59504820563030324120),
  (0x1336E, 0x454759505449414E20484945524F474C595048205630303320)]
def names_353 : List (Nat × Nat) := [
  (0x1336F, 0x454759505449414E20484945524F474C595048205630303420),
  (0x13370, 0x454759505449414E20484945524F474C595048205630303520),
  (0x13371, 0x454759505449414E20484945524F474C595048205630303620),
  (0x13372, 0x454759505449414E20484945524F474C595048205630303720),
  (0x13373, 0x454759505449414E20484945524F474C59504820563030374120),
  (0x13374, 0x454759505449414E20484945524F474C59504820563030374220),
  (0x13375, 0x454759505449414E20484945524F474C595048205630303820),
  (0x13376, 0x454759505449414E20484945524F474C595048205630303920),
  (0x13377, 0x454759505449414E20484945524F474C595048205630313020),
  (0x13378, 0x454759505449414E20484945524F474C595048205630313120),
  (0x13379, 0x454759505449414E20484945524F474C59504820563031314120),
  (0x1337A, 0x454759505449414E20484945524F474C59504820563031314220),
  (0x1337B, 0x454759505449414E20484945524F474C59504820563031314320),
  (0x1337C, 0x454759505449414E20484945524F474C595048205630313220),
  (0x1337D, 0x454759505449414E20484945524F474C59504820563031324120),
  (0x1337E, 0x454759505449414E20484945524F474C59504820563031324220),
  (0x1337F, 0x454759505449414E20484945524F474C595048205630313320),
  (0x13380, 0x454759505449414E20484945524F474C595048205630313420),
  (0x13381, 0x454759505449414E20484945524F474C595048205630313520),
  (0x13382, 0x454759505449414E20484945524F474C595048205630313620),
  (0x13383, 0x454759505449414E20484945524F474C595048205630313720),
  (0x13384, 0x454759505449414E20484945524F474C595048205630313820),
  (0x13385, 0x454759505449414E20484945524F474C595048205630313920),
  (0x13386, 0x454759505449414E20484945524F474C595048205630323020),
  (0x13387, 0x454759505449414E20484945524F474C59504820563032304120),
  (0x13388, 0x454759505449414E20484945524F474C59504820563032304220),
  (0x13389, 0x454759505449414E20484945524F474C59504820563032304320),
  (0x1338A, 0x454759505449414E20484945524F474C59504820563032304420),
  (0x1338B, 0x454759505449414E20484945524F474C59504820563032304520),
  (0x1338C, 0x454759505449414E20484945524F474C59504820563032304620),
  (0x1338D, 0x454759505449414E20484945524F474C59504820563032304720),
  (0x1338E, 0x454759505449414E20484945524F474C59504820563032304820),
  (0x1338F, 0x454759505449414E20484945524F474C59504820563032304920),
  (0x13390, 0x454759505449414E20484945524F474C59504820563032304A20),
  (0x13391, 0x454759505449414E20484945524F474C59504820563032304B20),
  (0x13392, 0x454759505449414E20484945524F474C59504820563032304C20),
  (0x13393, 0x454759505449414E20484945524F474C595048205630323120),
  (0x13394, 0x454759505449414E20484945524F474C595048205630323220),
  (0x13395, 0x454759505449414E20484945524F474C595048205630323320),
  (0x13396, 0x454759505449414E20484945524F474C59504820563032334120),
  (0x13397, 0x454759505449414E20484945524F474C595048205630323420),
  (0x13398, 0x454759505449414E20484945524F474C595048205630323520),
  (0x13399, 0x454759505449414E20484945524F474C595048205630323620),
  (0x1339A, 0x454759505449414E20484945524F474C595048205630323720),
  (0x1339B, 0x454759505449414E20484945524F474C595048205630323820),
  (0x1339C, 0x454759505449414E20484945524F474C59504820563032384120),
  (0x1339D, 0x454759505449414E20484945524F474C595048205630323920),
  (0x1339E, 0x454759505449414E20484945524F474C59504820563032394120),
  (0x1339F, 0x454759505449414E20484945524F474C595048205630333020),
  (0x133A0, 0x454759505449414E20484945524F474C59504820563033304120),
  (0x133A1, 0x454759505449414E20484945524F474C595048205630333120),
  (0x133A2, 0x454759505449414E20484945524F474C59504820563033314120),
  (0x133A3, 0x454759505449414E20484945524F474C595048205630333220),
  (0x133A4, 0x454759505449414E20484945524F474C595048205630333320),
  (0x133A5, 0x454759505449414E20484945524F474C59504820563033334120),
  (0x133A6, 0x454759505449414E20484945524F474C595048205630333420),
  (0x133A7, 0x454759505449414E20484945524F474C595048205630333520),
  (0x133A8, 0x454759505449414E20484945524F474C595048205630333620),
  (0x133A9, 0x454759505449414E20484945524F474C595048205630333720),
  (0x133AA, 0x454759505449414E20484945524F474C59504820563033374120),
  (0x133AB, 0x454759505449414E20484945524F474C595048205630333820),
  (0x133AC, 0x454759505449414E20484945524F474C595048205630333920),
  (0x133AD, 0x454759505449414E20484945524F474C595048205630343020),
  (0x133AE, 0x454759505449414E20484945524F474C59504820563034304120)]
def names_354 : List (Nat × Nat) := [
  (0x133AF, 0x454759505449414E20484945524F474C595048205730303120),
  (0x133B0, 0x454759505449414E20484945524F474C595048205730303220),
  (0x133B1, 0x454759505449414E20484945524F474C595048205730303320),
  (0x133B2, 0x454759505449414E20484945524F474C59504820573030334120),
  (0x133B3, 0x454759505449414E20484945524F474C595048205730303420),
  (0x133B4, 0x454759505449414E20484945524F474C595048205730303520),
  (0x133B5, 0x454759505449414E20484945524F474C595048205730303620),
  (0x133B6, 0x454759505449414E20484945524F474C595048205730303720),
  (0x133B7, 0x454759505449414E20484945524F474C595048205730303820),
  (0x133B8, 0x454759505449414E20484945524F474C595048205730303920),
  (0x133B9, 0x454759505449414E20484945524F474C59504820573030394120),
  (0x133BA, 0x454759505449414E20484945524F474C595048205730313020),
  (0x133BB, 0x454759505449414E20484945524F474C59504820573031304120),
  (0x133BC, 0x454759505449414E20484945524F474C595048205730313120),
  (0x133BD, 0x454759505449414E20484945524F474C595048205730313220),
  (0x133BE, 0x454759505449414E20484945524F474C595048205730313320),
  (0x133BF, 0x454759505449414E20484945524F474C595048205730313420),
  (0x133C0, 0x454759505449414E20484945524F474C59504820573031344120),
  (0x133C1, 0x454759505449414E20484945524F474C595048205730313520),
  (0x133C2, 0x454759505449414E20484945524F474C595048205730313620),
  (0x133C3, 0x454759505449414E20484945524F474C595048205730313720),
  (0x133C4, 0x454759505449414E20484945524F474C59504820573031374120),
  (0x133C5, 0x454759505449414E20484945524F474C595048205730313820),
  (0x133C6, 0x454759505449414E20484945524F474C59504820573031384120),
  (0x133C7, 0x454759505449414E20484945524F474C595048205730313920),
  (0x133C8, 0x454759505449414E20484945524F474C595048205730323020),
  (0x133C9, 0x454759505449414E20484945524F474C595048205730323120),
  (0x133CA, 0x454759505449414E20484945524F474C595048205730323220),
  (0x133CB, 0x454759505449414E20484945524F474C595048205730323320),
  (0x133CC, 0x454759505449414E20484945524F474C595048205730323420),
  (0x133CD, 0x454759505449414E20484945524F474C59504820573032344120),
  (0x133CE, 0x454759505449414E20484945524F474C595048205730323520),
  (0x133CF, 0x454759505449414E20484945524F474C595048205830303120),
  (0x133D0, 0x454759505449414E20484945524F474C595048205830303220),
  (0x133D1, 0x454759505449414E20484945524F474C595048205830303320),
  (0x133D2, 0x454759505449414E20484945524F474C595048205830303420),
  (0x133D3, 0x454759505449414E20484945524F474C59504820583030344120),
  (0x133D4, 0x454759505449414E20484945524F474C59504820583030344220),
  (0x133D5, 0x454759505449414E20484945524F474C595048205830303520),
  (0x133D6, 0x454759505449414E20484945524F474C595048205830303620),
  (0x133D7, 0x454759505449414E20484945524F474C59504820583030364120),
  (0x133D8, 0x454759505449414E20484945524F474C595048205830303720),
  (0x133D9, 0x454759505449414E20484945524F474C595048205830303820),
  (0x133DA, 0x454759505449414E20484945524F474C59504820583030384120),
  (0x133DB, 0x454759505449414E20484945524F474C595048205930303120),
  (0x133DC, 0x454759505449414E20484945524F474C59504820593030314120),
  (0x133DD, 0x454759505449414E20484945524F474C595048205930303220),
  (0x133DE, 0x454759505449414E20484945524F474C595048205930303320),
  (0x133DF, 0x454759505449414E20484945524F474C595048205930303420),
  (0x133E0, 0x454759505449414E20484945524F474C595048205930303520),
  (0x133E1, 0x454759505449414E20484945524F474C595048205930303620),
  (0x133E2, 0x454759505449414E20484945524F474C595048205930303720),
  (0x133E3, 0x454759505449414E20484945524F474C595048205930303820),
  (0x133E4, 0x454759505449414E20484945524F474C595048205A30303120),
  (0x133E5, 0x454759505449414E20484945524F474C595048205A30303220),
  (0x133E6, 0x454759505449414E20484945524F474C595048205A3030324120),
  (0x133E7, 0x454759505449414E20484945524F474C595048205A3030324220),
  (0x133E8, 0x454759505449414E20484945524F474C595048205A3030324320),
  (0x133E9, 0x454759505449414E20484945524F474C595048205A3030324420),
  (0x133EA, 0x454759505449414E20484945524F474C595048205A30303320),
  (0x133EB, 0x454759505449414E20484945524F474C595048205A3030334120),
  (0x133EC, 0x454759505449414E20484945524F474C595048205A3030334220),
  (0x133ED, 0x454759505449414E20484945524F474C595048205A30303420),
  (0x133EE, 0x454759505449414E20484945524F474C595048205A3030344120)]
def names_355 : List (Nat × Nat) := [
  (0x133EF, 0x454759505449414E20484945524F474C595048205A30303520),
  (0x133F0, 0x454759505449414E20484945524F474C595048205A3030354120),
  (0x133F1, 0x454759505449414E20484945524F474C595048205A30303620),
  (0x133F2, 0x454759505449414E20484945524F474C595048205A30303720),
  (0x133F3, 0x454759505449414E20484945524F474C595048205A30303820),
  (0x133F4, 0x454759505449414E20484945524F474C595048205A30303920),
  (0x133F5, 0x454759505449414E20484945524F474C595048205A30313020),
  (0x133F6, 0x454759505449414E20484945524F474C595048205A30313120),
  (0x133F7, 0x454759505449414E20484945524F474C595048205A30313220),
  (0x133F8, 0x454759505449414E20484945524F474C595048205A30313320),
  (0x133F9, 0x454759505449414E20484945524F474C595048205A30313420),
  (0x133FA, 0x454759505449414E20484945524F474C595048205A30313520),
  (0x133FB, 0x454759505449414E20484945524F474C595048205A3031354120),
  (0x133FC, 0x454759505449414E20484945524F474C595048205A3031354220),
  (0x133FD, 0x454759505449414E20484945524F474C595048205A3031354320),
  (0x133FE, 0x454759505449414E20484945524F474C595048205A3031354420),
  (0x133FF, 0x454759505449414E20484945524F474C595048205A3031354520),
  (0x13400, 0x454759505449414E20484945524F474C595048205A3031354620),
  (0x13401, 0x454759505449414E20484945524F474C595048205A3031354720),
  (0x13402, 0x454759505449414E20484945524F474C595048205A3031354820),
  (0x13403, 0x454759505449414E20484945524F474C595048205A3031354920),
  (0x13404, 0x454759505449414E20484945524F474C595048205A30313620),
  (0x13405, 0x454759505449414E20484945524F474C595048205A3031364120),
  (0x13406, 0x454759505449414E20484945524F474C595048205A3031364220),
  (0x13407, 0x454759505449414E20484945524F474C595048205A3031364320),
  (0x13408, 0x454759505449414E20484945524F474C595048205A3031364420),
  (0x13409, 0x454759505449414E20484945524F474C595048205A3031364520),
  (0x1340A, 0x454759505449414E20484945524F474C595048205A3031364620),
  (0x1340B, 0x454759505449414E20484945524F474C595048205A3031364720),
  (0x1340C, 0x454759505449414E20484945524F474C595048205A3031364820),
  (0x1340D, 0x454759505449414E20484945524F474C59504820414130303120),
  (0x1340E, 0x454759505449414E20484945524F474C59504820414130303220),
  (0x1340F, 0x454759505449414E20484945524F474C59504820414130303320),
  (0x13410, 0x454759505449414E20484945524F474C59504820414130303420),
  (0x13411, 0x454759505449414E20484945524F474C59504820414130303520),
  (0x13412, 0x454759505449414E20484945524F474C59504820414130303620),
  (0x13413, 0x454759505449414E20484945524F474C59504820414130303720),
  (0x13414, 0x454759505449414E20484945524F474C5950482041413030374120),
  (0x13415, 0x454759505449414E20484945524F474C5950482041413030374220),
  (0x13416, 0x454759505449414E20484945524F474C59504820414130303820),
  (0x13417, 0x454759505449414E20484945524F474C59504820414130303920),
  (0x13418, 0x454759505449414E20484945524F474C59504820414130313020),
  (0x13419, 0x454759505449414E20484945524F474C59504820414130313120),
  (0x1341A, 0x454759505449414E20484945524F474C59504820414130313220),
  (0x1341B, 0x454759505449414E20484945524F474C59504820414130313320),
  (0x1341C, 0x454759505449414E20484945524F474C59504820414130313420),
  (0x1341D, 0x454759505449414E20484945524F474C59504820414130313520),
  (0x1341E, 0x454759505449414E20484945524F474C59504820414130313620),
  (0x1341F, 0x454759505449414E20484945524F474C59504820414130313720),
  (0x13420, 0x454759505449414E20484945524F474C59504820414130313820),
  (0x13421, 0x454759505449414E20484945524F474C59504820414130313920),
  (0x13422, 0x454759505449414E20484945524F474C59504820414130323020),
  (0x13423, 0x454759505449414E20484945524F474C59504820414130323120),
  (0x13424, 0x454759505449414E20484945524F474C59504820414130323220),
  (0x13425, 0x454759505449414E20484945524F474C59504820414130323320),
  (0x13426, 0x454759505449414E20484945524F474C59504820414130323420),
  (0x13427, 0x454759505449414E20484945524F474C59504820414130323520),
  (0x13428, 0x454759505449414E20484945524F474C59504820414130323620),
  (0x13429, 0x454759505449414E20484945524F474C59504820414130323720),
  (0x1342A, 0x454759505449414E20484945524F474C59504820414130323820),
  (0x1342B, 0x454759505449414E20484945524F474C59504820414130323920),
  (0x1342C, 0x454759505449414E20484945524F474C59504820414130333020),
  (0x1342D, 0x454759505449414E20484945524F474C59504820414130333120),
  (0x1342E, 0x454759505449414E20484945524F474C59504820414130333220)]
def names_356 : List (Nat × Nat) := [
  (0x14400, 0x414E41544F4C49414E20484945524F474C595048204130303120),
  (0x14401, 0x414E41544F4C49414E20484945524F474C595048204130303220),
  (0x14402, 0x414E41544F4C49414E20484945524F474C595048204130303320),
  (0x14403, 0x414E41544F4C49414E20484945524F474C595048204130303420),
  (0x14404, 0x414E41544F4C49414E20484945524F474C595048204130303520),
  (0x14405, 0x414E41544F4C49414E20484945524F474C595048204130303620),
  (0x14406, 0x414E41544F4C49414E20484945524F474C595048204130303720),
  (0x14407, 0x414E41544F4C49414E20484945524F474C595048204130303820),
  (0x14408, 0x414E41544F4C49414E20484945524F474C595048204130303920),
  (0x14409, 0x414E41544F4C49414E20484945524F474C595048204130313020),
  (0x1440A, 0x414E41544F4C49414E20484945524F474C59504820413031304120),
  (0x1440B, 0x414E41544F4C49414E20484945524F474C595048204130313120),
  (0x1440C, 0x414E41544F4C49414E20484945524F474C595048204130313220),
  (0x1440D, 0x414E41544F4C49414E20484945524F474C595048204130313320),
  (0x1440E, 0x414E41544F4C49414E20484945524F474C595048204130313420),
  (0x1440F, 0x414E41544F4C49414E20484945524F474C595048204130313520),
  (0x14410, 0x414E41544F4C49414E20484945524F474C595048204130313620),
  (0x14411, 0x414E41544F4C49414E20484945524F474C595048204130313720),
  (0x14412, 0x414E41544F4C49414E20484945524F474C595048204130313820),
  (0x14413, 0x414E41544F4C49414E20484945524F474C595048204130313920),
  (0x14414, 0x414E41544F4C49414E20484945524F474C595048204130323020),
  (0x14415, 0x414E41544F4C49414E20484945524F474C595048204130323120),
  (0x14416, 0x414E41544F4C49414E20484945524F474C595048204130323220),
  (0x14417, 0x414E41544F4C49414E20484945524F474C595048204130323320),
  (0x14418, 0x414E41544F4C49414E20484945524F474C595048204130323420),
  (0x14419, 0x414E41544F4C49414E20484945524F474C595048204130323520),
  (0x1441A, 0x414E41544F4C49414E20484945524F474C595048204130323620),
  (0x1441B, 0x414E41544F4C49414E20484945524F474C59504820413032364120),
  (0x1441C, 0x414E41544F4C49414E20484945524F474C595048204130323720),
  (0x1441D, 0x414E41544F4C49414E20484945524F474C595048204130323820),
  (0x1441E, 0x414E41544F4C49414E20484945524F474C595048204130323920),
  (0x1441F, 0x414E41544F4C49414E20484945524F474C595048204130333020),
  (0x14420, 0x414E41544F4C49414E20484945524F474C595048204130333120),
  (0x14421, 0x414E41544F4C49414E20484945524F474C595048204130333220),
  (0x14422, 0x414E41544F4C49414E20484945524F474C595048204130333320),
  (0x14423, 0x414E41544F4C49414E20484945524F474C595048204130333420),
  (0x14424, 0x414E41544F4C49414E20484945524F474C595048204130333520),
  (0x14425, 0x414E41544F4C49414E20484945524F474C595048204130333620),
  (0x14426, 0x414E41544F4C49414E20484945524F474C595048204130333720),
  (0x14427, 0x414E41544F4C49414E20484945524F474C595048204130333820),
  (0x14428, 0x414E41544F4C49414E20484945524F474C595048204130333920),
  (0x14429, 0x414E41544F4C49414E20484945524F474C59504820413033394120),
  (0x1442A, 0x414E41544F4C49414E20484945524F474C595048204130343020),
  (0x1442B, 0x414E41544F4C49414E20484945524F474C595048204130343120),
  (0x1442C, 0x414E41544F4C49414E20484945524F474C59504820413034314120),
  (0x1442D, 0x414E41544F4C49414E20484945524F474C595048204130343220),
  (0x1442E, 0x414E41544F4C49414E20484945524F474C595048204130343320),
  (0x1442F, 0x414E41544F4C49414E20484945524F474C595048204130343420),
  (0x14430, 0x414E41544F4C49414E20484945524F474C595048204130343520),
  (0x14431, 0x414E41544F4C49414E20484945524F474C59504820413034354120),
  (0x14432, 0x414E41544F4C49414E20484945524F474C595048204130343620),
  (0x14433, 0x414E41544F4C49414E20484945524F474C59504820413034364120),
  (0x14434, 0x414E41544F4C49414E20484945524F474C59504820413034364220),
  (0x14435, 0x414E41544F4C49414E20484945524F474C595048204130343720),
  (0x14436, 0x414E41544F4C49414E20484945524F474C595048204130343820),
  (0x14437, 0x414E41544F4C49414E20484945524F474C595048204130343920),
  (0x14438, 0x414E41544F4C49414E20484945524F474C595048204130353020),
  (0x14439, 0x414E41544F4C49414E20484945524F474C595048204130353120),
  (0x1443A, 0x414E41544F4C49414E20484945524F474C595048204130353220),
  (0x1443B, 0x414E41544F4C49414E20484945524F474C595048204130353320),
  (0x1443C, 0x414E41544F4C49414E20484945524F474C595048204130353420),
  (0x1443D, 0x414E41544F4C49414E20484945524F474C595048204130353520),
  (0x1443E, 0x414E41544F4C49414E20484945524F474C595048204130353620),
  (0x1443F, 0x414E41544F4C49414E20484945524F474C595048204130353720)]
def names_357 : List (Nat × Nat) := [
  (0x14440, 0x414E41544F4C49414E20484945524F474C595048204130353820),
  (0x14441, 0x414E41544F4C49414E20484945524F474C595048204130353920),
  (0x14442, 0x414E41544F4C49414E20484945524F474C595048204130363020),
  (0x14443, 0x414E41544F4C49414E20484945524F474C595048204130363120),
  (0x14444, 0x414E41544F4C49414E20484945524F474C595048204130363220),
  (0x14445, 0x414E41544F4C49414E20484945524F474C595048204130363320),
  (0x14446, 0x414E41544F4C49414E20484945524F474C595048204130363420),
  (0x14447, 0x414E41544F4C49414E20484945524F474C595048204130363520),
  (0x14448, 0x414E41544F4C49414E20484945524F474C595048204130363620),
  (0x14449, 0x414E41544F4C49414E20484945524F474C59504820413036364120),
  (0x1444A, 0x414E41544F4C49414E20484945524F474C59504820413036364220),
  (0x1444B, 0x414E41544F4C49414E20484945524F474C59504820413036364320),
  (0x1444C, 0x414E41544F4C49414E20484945524F474C595048204130363720),
  (0x1444D, 0x414E41544F4C49414E20484945524F474C595048204130363820),
  (0x1444E, 0x414E41544F4C49414E20484945524F474C595048204130363920),
  (0x1444F, 0x414E41544F4C49414E20484945524F474C595048204130373020),
  (0x14450, 0x414E41544F4C49414E20484945524F474C595048204130373120),
  (0x14451, 0x414E41544F4C49414E20484945524F474C595048204130373220),
  (0x14452, 0x414E41544F4C49414E20484945524F474C595048204130373320),
  (0x14453, 0x414E41544F4C49414E20484945524F474C595048204130373420),
  (0x14454, 0x414E41544F4C49414E20484945524F474C595048204130373520),
  (0x14455, 0x414E41544F4C49414E20484945524F474C595048204130373620),
  (0x14456, 0x414E41544F4C49414E20484945524F474C595048204130373720),
  (0x14457, 0x414E41544F4C49414E20484945524F474C595048204130373820),
  (0x14458, 0x414E41544F4C49414E20484945524F474C595048204130373920),
  (0x14459, 0x414E41544F4C49414E20484945524F474C595048204130383020),
  (0x1445A, 0x414E41544F4C49414E20484945524F474C595048204130383120),
  (0x1445B, 0x414E41544F4C49414E20484945524F474C595048204130383220),
  (0x1445C, 0x414E41544F4C49414E20484945524F474C595048204130383320),
  (0x1445D, 0x414E41544F4C49414E20484945524F474C595048204130383420),
  (0x1445E, 0x414E41544F4C49414E20484945524F474C595048204130383520),
  (0x1445F, 0x414E41544F4C49414E20484945524F474C595048204130383620),
  (0x14460, 0x414E41544F4C49414E20484945524F474C595048204130383720),
  (0x14461, 0x414E41544F4C49414E20484945524F474C595048204130383820),
  (0x14462, 0x414E41544F4C49414E20484945524F474C595048204130383920),
  (0x14463, 0x414E41544F4C49414E20484945524F474C595048204130393020),
  (0x14464, 0x414E41544F4C49414E20484945524F474C595048204130393120),
  (0x14465, 0x414E41544F4C49414E20484945524F474C595048204130393220),
  (0x14466, 0x414E41544F4C49414E20484945524F474C595048204130393320),
  (0x14467, 0x414E41544F4C49414E20484945524F474C595048204130393420),
  (0x14468, 0x414E41544F4C49414E20484945524F474C595048204130393520),
  (0x14469, 0x414E41544F4C49414E20484945524F474C595048204130393620),
  (0x1446A, 0x414E41544F4C49414E20484945524F474C595048204130393720),
  (0x1446B, 0x414E41544F4C49414E20484945524F474C59504820413039374120),
  (0x1446C, 0x414E41544F4C49414E20484945524F474C595048204130393820),
  (0x1446D, 0x414E41544F4C49414E20484945524F474C59504820413039384120),
  (0x1446E, 0x414E41544F4C49414E20484945524F474C595048204130393920),
  (0x1446F, 0x414E41544F4C49414E20484945524F474C595048204131303020),
  (0x14470, 0x414E41544F4C49414E20484945524F474C59504820413130304120),
  (0x14471, 0x414E41544F4C49414E20484945524F474C595048204131303120),
  (0x14472, 0x414E41544F4C49414E20484945524F474C59504820413130314120),
  (0x14473, 0x414E41544F4C49414E20484945524F474C595048204131303220),
  (0x14474, 0x414E41544F4C49414E20484945524F474C59504820413130324120),
  (0x14475, 0x414E41544F4C49414E20484945524F474C595048204131303320),
  (0x14476, 0x414E41544F4C49414E20484945524F474C595048204131303420),
  (0x14477, 0x414E41544F4C49414E20484945524F474C59504820413130344120),
  (0x14478, 0x414E41544F4C49414E20484945524F474C59504820413130344220),
  (0x14479, 0x414E41544F4C49414E20484945524F474C59504820413130344320),
  (0x1447A, 0x414E41544F4C49414E20484945524F474C595048204131303520),
  (0x1447B, 0x414E41544F4C49414E20484945524F474C59504820413130354120),
  (0x1447C, 0x414E41544F4C49414E20484945524F474C59504820413130354220),
  (0x1447D, 0x414E41544F4C49414E20484945524F474C595048204131303620),
  (0x1447E, 0x414E41544F4C49414E20484945524F474C595048204131303720),
  (0x1447F, 0x414E41544F4C49414E20484945524F474C59504820413130374120)]
def names_358 : List (Nat × Nat) := [
  (0x14480, 0x414E41544F4C49414E20484945524F474C59504820413130374220),
  (0x14481, 0x414E41544F4C49414E20484945524F474C59504820413130374320),
  (0x14482, 0x414E41544F4C49414E20484945524F474C595048204131303820),
  (0x14483, 0x414E41544F4C49414E20484945524F474C595048204131303920),
  (0x14484, 0x414E41544F4C49414E20484945524F474C595048204131313020),
  (0x14485, 0x414E41544F4C49414E20484945524F474C59504820413131304120),
  (0x14486, 0x414E41544F4C49414E20484945524F474C59504820413131304220),
  (0x14487, 0x414E41544F4C49414E20484945524F474C595048204131313120),
  (0x14488, 0x414E41544F4C49414E20484945524F474C595048204131313220),
  (0x14489, 0x414E41544F4C49414E20484945524F474C595048204131313320),
  (0x1448A, 0x414E41544F4C49414E20484945524F474C595048204131313420),
  (0x1448B, 0x414E41544F4C49414E20484945524F474C595048204131313520),
  (0x1448C, 0x414E41544F4C49414E20484945524F474C59504820413131354120),
  (0x1448D, 0x414E41544F4C49414E20484945524F474C595048204131313620),
  (0x1448E, 0x414E41544F4C49414E20484945524F474C595048204131313720),
  (0x1448F, 0x414E41544F4C49414E20484945524F474C595048204131313820),
  (0x14490, 0x414E41544F4C49414E20484945524F474C595048204131313920),
  (0x14491, 0x414E41544F4C49414E20484945524F474C595048204131323020),
  (0x14492, 0x414E41544F4C49414E20484945524F474C595048204131323120),
  (0x14493, 0x414E41544F4C49414E20484945524F474C595048204131323220),
  (0x14494, 0x414E41544F4C49414E20484945524F474C595048204131323320),
  (0x14495, 0x414E41544F4C49414E20484945524F474C595048204131323420),
  (0x14496, 0x414E41544F4C49414E20484945524F474C595048204131323520),
  (0x14497, 0x414E41544F4C49414E20484945524F474C59504820413132354120),
  (0x14498, 0x414E41544F4C49414E20484945524F474C595048204131323620),
  (0x14499, 0x414E41544F4C49414E20484945524F474C595048204131323720),
  (0x1449A, 0x414E41544F4C49414E20484945524F474C595048204131323820),
  (0x1449B, 0x414E41544F4C49414E20484945524F474C595048204131323920),
  (0x1449C, 0x414E41544F4C49414E20484945524F474C595048204131333020),
  (0x1449D, 0x414E41544F4C49414E20484945524F474C595048204131333120),
  (0x1449E, 0x414E41544F4C49414E20484945524F474C595048204131333220),
  (0x1449F, 0x414E41544F4C49414E20484945524F474C595048204131333320),
  (0x144A0, 0x414E41544F4C49414E20484945524F474C595048204131333420),
  (0x144A1, 0x414E41544F4C49414E20484945524F474C595048204131333520),
  (0x144A2, 0x414E41544F4C49414E20484945524F474C59504820413133354120),
  (0x144A3, 0x414E41544F4C49414E20484945524F474C595048204131333620),
  (0x144A4, 0x414E41544F4C49414E20484945524F474C595048204131333720),
  (0x144A5, 0x414E41544F4C49414E20484945524F474C595048204131333820),
  (0x144A6, 0x414E41544F4C49414E20484945524F474C595048204131333920),
  (0x144A7, 0x414E41544F4C49414E20484945524F474C595048204131343020),
  (0x144A8, 0x414E41544F4C49414E20484945524F474C595048204131343120),
  (0x144A9, 0x414E41544F4C49414E20484945524F474C595048204131343220),
  (0x144AA, 0x414E41544F4C49414E20484945524F474C595048204131343320),
  (0x144AB, 0x414E41544F4C49414E20484945524F474C595048204131343420),
  (0x144AC, 0x414E41544F4C49414E20484945524F474C595048204131343520),
  (0x144AD, 0x414E41544F4C49414E20484945524F474C595048204131343620),
  (0x144AE, 0x414E41544F4C49414E20484945524F474C595048204131343720),
  (0x144AF, 0x414E41544F4C49414E20484945524F474C595048204131343820),
  (0x144B0, 0x414E41544F4C49414E20484945524F474C595048204131343920),
  (0x144B1, 0x414E41544F4C49414E20484945524F474C595048204131353020),
  (0x144B2, 0x414E41544F4C49414E20484945524F474C595048204131353120),
  (0x144B3, 0x414E41544F4C49414E20484945524F474C595048204131353220),
  (0x144B4, 0x414E41544F4C49414E20484945524F474C595048204131353320),
  (0x144B5, 0x414E41544F4C49414E20484945524F474C595048204131353420),
  (0x144B6, 0x414E41544F4C49414E20484945524F474C595048204131353520),
  (0x144B7, 0x414E41544F4C49414E20484945524F474C595048204131353620),
  (0x144B8, 0x414E41544F4C49414E20484945524F474C595048204131353720),
  (0x144B9, 0x414E41544F4C49414E20484945524F474C595048204131353820),
  (0x144BA, 0x414E41544F4C49414E20484945524F474C595048204131353920),
  (0x144BB, 0x414E41544F4C49414E20484945524F474C595048204131363020),
  (0x144BC, 0x414E41544F4C49414E20484945524F474C595048204131363120),
  (0x144BD, 0x414E41544F4C49414E20484945524F474C595048204131363220),
  (0x144BE, 0x414E41544F4C49414E20484945524F474C595048204131363320),
  (0x144BF, 0x414E41544F4C49414E20484945524F474C595048204131363420)]
def names_359 : List (Nat × Nat) := [
  (0x144C0, 0x414E41544F4C49414E20484945524F474C595048204131363520),
  (0x144C1, 0x414E41544F4C49414E20484945524F474C595048204131363620),
  (0x144C2, 0x414E41544F4C49414E20484945524F474C595048204131363720),
  (0x144C3, 0x414E41544F4C49414E20484945524F474C595048204131363820),
  (0x144C4, 0x414E41544F4C49414E20484945524F474C595048204131363920),
  (0x144C5, 0x414E41544F4C49414E20484945524F474C595048204131373020),
  (0x144C6, 0x414E41544F4C49414E20484945524F474C595048204131373120),
  (0x144C7, 0x414E41544F4C49414E20484945524F474C595048204131373220),
  (0x144C8, 0x414E41544F4C49414E20484945524F474C595048204131373320),
  (0x144C9, 0x414E41544F4C49414E20484945524F474C595048204131373420),
  (0x144CA, 0x414E41544F4C49414E20484945524F474C595048204131373520),
  (0x144CB, 0x414E41544F4C49414E20484945524F474C595048204131373620),
  (0x144CC, 0x414E41544F4C49414E20484945524F474C595048204131373720),
  (0x144CD, 0x414E41544F4C49414E20484945524F474C595048204131373820),
  (0x144CE, 0x414E41544F4C49414E20484945524F474C595048204131373920),
  (0x144CF, 0x414E41544F4C49414E20484945524F474C595048204131383020),
  (0x144D0, 0x414E41544F4C49414E20484945524F474C595048204131383120),
  (0x144D1, 0x414E41544F4C49414E20484945524F474C595048204131383220),
  (0x144D2, 0x414E41544F4C49414E20484945524F474C595048204131383320),
  (0x144D3, 0x414E41544F4C49414E20484945524F474C595048204131383420),
  (0x144D4, 0x414E41544F4C49414E20484945524F474C595048204131383520),
  (0x144D5, 0x414E41544F4C49414E20484945524F474C595048204131383620),
  (0x144D6, 0x414E41544F4C49414E20484945524F474C595048204131383720),
  (0x144D7, 0x414E41544F4C49414E20484945524F474C595048204131383820),
  (0x144D8, 0x414E41544F4C49414E20484945524F474C595048204131383920),
  (0x144D9, 0x414E41544F4C49414E20484945524F474C595048204131393020),
  (0x144DA, 0x414E41544F4C49414E20484945524F474C595048204131393120),
  (0x144DB, 0x414E41544F4C49414E20484945524F474C595048204131393220),
  (0x144DC, 0x414E41544F4C49414E20484945524F474C595048204131393320),
  (0x144DD, 0x414E41544F4C49414E20484945524F474C595048204131393420),
  (0x144DE, 0x414E41544F4C49414E20484945524F474C595048204131393520),
  (0x144DF, 0x414E41544F4C49414E20484945524F474C595048204131393620),
  (0x144E0, 0x414E41544F4C49414E20484945524F474C595048204131393720),
  (0x144E1, 0x414E41544F4C49414E20484945524F474C595048204131393820),
  (0x144E2, 0x414E41544F4C49414E20484945524F474C595048204131393920),
  (0x144E3, 0x414E41544F4C49414E20484945524F474C595048204132303020),
  (0x144E4, 0x414E41544F4C49414E20484945524F474C595048204132303120),
  (0x144E5, 0x414E41544F4C49414E20484945524F474C595048204132303220),
  (0x144E6, 0x414E41544F4C49414E20484945524F474C59504820413230324120),
  (0x144E7, 0x414E41544F4C49414E20484945524F474C59504820413230324220),
  (0x144E8, 0x414E41544F4C49414E20484945524F474C595048204132303320),
  (0x144E9, 0x414E41544F4C49414E20484945524F474C595048204132303420),
  (0x144EA, 0x414E41544F4C49414E20484945524F474C595048204132303520),
  (0x144EB, 0x414E41544F4C49414E20484945524F474C595048204132303620),
  (0x144EC, 0x414E41544F4C49414E20484945524F474C595048204132303720),
  (0x144ED, 0x414E41544F4C49414E20484945524F474C59504820413230374120),
  (0x144EE, 0x414E41544F4C49414E20484945524F474C595048204132303820),
  (0x144EF, 0x414E41544F4C49414E20484945524F474C595048204132303920),
  (0x144F0, 0x414E41544F4C49414E20484945524F474C59504820413230394120),
  (0x144F1, 0x414E41544F4C49414E20484945524F474C595048204132313020),
  (0x144F2, 0x414E41544F4C49414E20484945524F474C595048204132313120),
  (0x144F3, 0x414E41544F4C49414E20484945524F474C595048204132313220),
  (0x144F4, 0x414E41544F4C49414E20484945524F474C595048204132313320),
  (0x144F5, 0x414E41544F4C49414E20484945524F474C595048204132313420),
  (0x144F6, 0x414E41544F4C49414E20484945524F474C595048204132313520),
  (0x144F7, 0x414E41544F4C49414E20484945524F474C59504820413231354120),
  (0x144F8, 0x414E41544F4C49414E20484945524F474C595048204132313620),
  (0x144F9, 0x414E41544F4C49414E20484945524F474C59504820413231364120),
  (0x144FA, 0x414E41544F4C49414E20484945524F474C595048204132313720),
  (0x144FB, 0x414E41544F4C49414E20484945524F474C595048204132313820),
  (0x144FC, 0x414E41544F4C49414E20484945524F474C595048204132313920),
  (0x144FD, 0x414E41544F4C49414E20484945524F474C595048204132323020),
  (0x144FE, 0x414E41544F4C49414E20484945524F474C595048204132323120),
  (0x144FF, 0x414E41544F4C49414E20484945524F474C595048204132323220)]
def names_360 : List (Nat × Nat) := [
  (0x14500, 0x414E41544F4C49414E20484945524F474C595048204132323320),
  (0x14501, 0x414E41544F4C49414E20484945524F474C595048204132323420),
  (0x14502, 0x414E41544F4C49414E20484945524F474C595048204132323520),
  (0x14503, 0x414E41544F4C49414E20484945524F474C595048204132323620),
  (0x14504, 0x414E41544F4C49414E20484945524F474C595048204132323720),
  (0x14505, 0x414E41544F4C49414E20484945524F474C59504820413232374120),
  (0x14506, 0x414E41544F4C49414E20484945524F474C595048204132323820),
  (0x14507, 0x414E41544F4C49414E20484945524F474C595048204132323920),
  (0x14508, 0x414E41544F4C49414E20484945524F474C595048204132333020),
  (0x14509, 0x414E41544F4C49414E20484945524F474C595048204132333120),
  (0x1450A, 0x414E41544F4C49414E20484945524F474C595048204132333220),
  (0x1450B, 0x414E41544F4C49414E20484945524F474C595048204132333320),
  (0x1450C, 0x414E41544F4C49414E20484945524F474C595048204132333420),
  (0x1450D, 0x414E41544F4C49414E20484945524F474C595048204132333520),
  (0x1450E, 0x414E41544F4C49414E20484945524F474C595048204132333620),
  (0x1450F, 0x414E41544F4C49414E20484945524F474C595048204132333720),
  (0x14510, 0x414E41544F4C49414E20484945524F474C595048204132333820),
  (0x14511, 0x414E41544F4C49414E20484945524F474C595048204132333920),
  (0x14512, 0x414E41544F4C49414E20484945524F474C595048204132343020),
  (0x14513, 0x414E41544F4C49414E20484945524F474C595048204132343120),
  (0x14514, 0x414E41544F4C49414E20484945524F474C595048204132343220),
  (0x14515, 0x414E41544F4C49414E20484945524F474C595048204132343320),
  (0x14516, 0x414E41544F4C49414E20484945524F474C595048204132343420),
  (0x14517, 0x414E41544F4C49414E20484945524F474C595048204132343520),
  (0x14518, 0x414E41544F4C49414E20484945524F474C595048204132343620),
  (0x14519, 0x414E41544F4C49414E20484945524F474C595048204132343720),
  (0x1451A, 0x414E41544F4C49414E20484945524F474C595048204132343820),
  (0x1451B, 0x414E41544F4C49414E20484945524F474C595048204132343920),
  (0x1451C, 0x414E41544F4C49414E20484945524F474C595048204132353020),
  (0x1451D, 0x414E41544F4C49414E20484945524F474C595048204132353120),
  (0x1451E, 0x414E41544F4C49414E20484945524F474C595048204132353220),
  (0x1451F, 0x414E41544F4C49414E20484945524F474C595048204132353320),
  (0x14520, 0x414E41544F4C49414E20484945524F474C595048204132353420),
  (0x14521, 0x414E41544F4C49414E20484945524F474C595048204132353520),
  (0x14522, 0x414E41544F4C49414E20484945524F474C595048204132353620),
  (0x14523, 0x414E41544F4C49414E20484945524F474C595048204132353720),
  (0x14524, 0x414E41544F4C49414E20484945524F474C595048204132353820),
  (0x14525, 0x414E41544F4C49414E20484945524F474C595048204132353920),
  (0x14526, 0x414E41544F4C49414E20484945524F474C595048204132363020),
  (0x14527, 0x414E41544F4C49414E20484945524F474C595048204132363120),
  (0x14528, 0x414E41544F4C49414E20484945524F474C595048204132363220),
  (0x14529, 0x414E41544F4C49414E20484945524F474C595048204132363320),
  (0x1452A, 0x414E41544F4C49414E20484945524F474C595048204132363420),
  (0x1452B, 0x414E41544F4C49414E20484945524F474C595048204132363520),
  (0x1452C, 0x414E41544F4C49414E20484945524F474C595048204132363620),
  (0x1452D, 0x414E41544F4C49414E20484945524F474C595048204132363720),
  (0x1452E, 0x414E41544F4C49414E20484945524F474C59504820413236374120),
  (0x1452F, 0x414E41544F4C49414E20484945524F474C595048204132363820),
  (0x14530, 0x414E41544F4C49414E20484945524F474C595048204132363920),
  (0x14531, 0x414E41544F4C49414E20484945524F474C595048204132373020),
  (0x14532, 0x414E41544F4C49414E20484945524F474C595048204132373120),
  (0x14533, 0x414E41544F4C49414E20484945524F474C595048204132373220),
  (0x14534, 0x414E41544F4C49414E20484945524F474C595048204132373320),
  (0x14535, 0x414E41544F4C49414E20484945524F474C595048204132373420),
  (0x14536, 0x414E41544F4C49414E20484945524F474C595048204132373520),
  (0x14537, 0x414E41544F4C49414E20484945524F474C595048204132373620),
  (0x14538, 0x414E41544F4C49414E20484945524F474C595048204132373720),
  (0x14539, 0x414E41544F4C49414E20484945524F474C595048204132373820),
  (0x1453A, 0x414E41544F4C49414E20484945524F474C595048204132373920),
  (0x1453B, 0x414E41544F4C49414E20484945524F474C595048204132383020),
  (0x1453C, 0x414E41544F4C49414E20484945524F474C595048204132383120),
  (0x1453D, 0x414E41544F4C49414E20484945524F474C595048204132383220),
  (0x1453E, 0x414E41544F4C49414E20484945524F474C595048204132383320),
  (0x1453F, 0x414E41544F4C49414E20484945524F474C595048204132383420)]
def names_361 : List (Nat × Nat) := [
  (0x14540, 0x414E41544F4C49414E20484945524F474C595048204132383520),
  (0x14541, 0x414E41544F4C49414E20484945524F474C595048204132383620),
  (0x14542, 0x414E41544F4C49414E20484945524F474C595048204132383720),
  (0x14543, 0x414E41544F4C49414E20484945524F474C595048204132383820),
  (0x14544, 0x414E41544F4C49414E20484945524F474C595048204132383920),
  (0x14545, 0x414E41544F4C49414E20484945524F474C59504820413238394120),
  (0x14546, 0x414E41544F4C49414E20484945524F474C595048204132393020),
  (0x14547, 0x414E41544F4C49414E20484945524F474C595048204132393120),
  (0x14548, 0x414E41544F4C49414E20484945524F474C595048204132393220),
  (0x14549, 0x414E41544F4C49414E20484945524F474C595048204132393320),
  (0x1454A, 0x414E41544F4C49414E20484945524F474C595048204132393420),
  (0x1454B, 0x414E41544F4C49414E20484945524F474C59504820413239344120),
  (0x1454C, 0x414E41544F4C49414E20484945524F474C595048204132393520),
  (0x1454D, 0x414E41544F4C49414E20484945524F474C595048204132393620),
  (0x1454E, 0x414E41544F4C49414E20484945524F474C595048204132393720),
  (0x1454F, 0x414E41544F4C49414E20484945524F474C595048204132393820),
  (0x14550, 0x414E41544F4C49414E20484945524F474C595048204132393920),
  (0x14551, 0x414E41544F4C49414E20484945524F474C59504820413239394120),
  (0x14552, 0x414E41544F4C49414E20484945524F474C595048204133303020),
  (0x14553, 0x414E41544F4C49414E20484945524F474C595048204133303120),
  (0x14554, 0x414E41544F4C49414E20484945524F474C595048204133303220),
  (0x14555, 0x414E41544F4C49414E20484945524F474C595048204133303320),
  (0x14556, 0x414E41544F4C49414E20484945524F474C595048204133303420),
  (0x14557, 0x414E41544F4C49414E20484945524F474C595048204133303520),
  (0x14558, 0x414E41544F4C49414E20484945524F474C595048204133303620),
  (0x14559, 0x414E41544F4C49414E20484945524F474C595048204133303720),
  (0x1455A, 0x414E41544F4C49414E20484945524F474C595048204133303820),
  (0x1455B, 0x414E41544F4C49414E20484945524F474C595048204133303920),
  (0x1455C, 0x414E41544F4C49414E20484945524F474C59504820413330394120),
  (0x1455D, 0x414E41544F4C49414E20484945524F474C595048204133313020),
  (0x1455E, 0x414E41544F4C49414E20484945524F474C595048204133313120),
  (0x1455F, 0x414E41544F4C49414E20484945524F474C595048204133313220),
  (0x14560, 0x414E41544F4C49414E20484945524F474C595048204133313320),
  (0x14561, 0x414E41544F4C49414E20484945524F474C595048204133313420),
  (0x14562, 0x414E41544F4C49414E20484945524F474C595048204133313520),
  (0x14563, 0x414E41544F4C49414E20484945524F474C595048204133313620),
  (0x14564, 0x414E41544F4C49414E20484945524F474C595048204133313720),
  (0x14565, 0x414E41544F4C49414E20484945524F474C595048204133313820),
  (0x14566, 0x414E41544F4C49414E20484945524F474C595048204133313920),
  (0x14567, 0x414E41544F4C49414E20484945524F474C595048204133323020),
  (0x14568, 0x414E41544F4C49414E20484945524F474C595048204133323120),
  (0x14569, 0x414E41544F4C49414E20484945524F474C595048204133323220),
  (0x1456A, 0x414E41544F4C49414E20484945524F474C595048204133323320),
  (0x1456B, 0x414E41544F4C49414E20484945524F474C595048204133323420),
  (0x1456C, 0x414E41544F4C49414E20484945524F474C595048204133323520),
  (0x1456D, 0x414E41544F4C49414E20484945524F474C595048204133323620),
  (0x1456E, 0x414E41544F4C49414E20484945524F474C595048204133323720),
  (0x1456F, 0x414E41544F4C49414E20484945524F474C595048204133323820),
  (0x14570, 0x414E41544F4C49414E20484945524F474C595048204133323920),
  (0x14571, 0x414E41544F4C49414E20484945524F474C59504820413332394120),
  (0x14572, 0x414E41544F4C49414E20484945524F474C595048204133333020),
  (0x14573, 0x414E41544F4C49414E20484945524F474C595048204133333120),
  (0x14574, 0x414E41544F4C49414E20484945524F474C59504820413333324120),
  (0x14575, 0x414E41544F4C49414E20484945524F474C59504820413333324220),
  (0x14576, 0x414E41544F4C49414E20484945524F474C59504820413333324320),
  (0x14577, 0x414E41544F4C49414E20484945524F474C595048204133333320),
  (0x14578, 0x414E41544F4C49414E20484945524F474C595048204133333420),
  (0x14579, 0x414E41544F4C49414E20484945524F474C595048204133333520),
  (0x1457A, 0x414E41544F4C49414E20484945524F474C595048204133333620),
  (0x1457B, 0x414E41544F4C49414E20484945524F474C59504820413333364120),
  (0x1457C, 0x414E41544F4C49414E20484945524F474C59504820413333364220),
  (0x1457D, 0x414E41544F4C49414E20484945524F474C59504820413333364320),
  (0x1457E, 0x414E41544F4C49414E20484945524F474C595048204133333720),
  (0x1457F, 0x414E41544F4C49414E20484945524F474C595048204133333820)]
def names_362 : List (Nat × Nat) := [
  (0x14580, 0x414E41544F4C49414E20484945524F474C595048204133333920),
  (0x14581, 0x414E41544F4C49414E20484945524F474C595048204133343020),
  (0x14582, 0x414E41544F4C49414E20484945524F474C595048204133343120),
  (0x14583, 0x414E41544F4C49414E20484945524F474C595048204133343220),
  (0x14584, 0x414E41544F4C49414E20484945524F474C595048204133343320),
  (0x14585, 0x414E41544F4C49414E20484945524F474C595048204133343420),
  (0x14586, 0x414E41544F4C49414E20484945524F474C595048204133343520),
  (0x14587, 0x414E41544F4C49414E20484945524F474C595048204133343620),
  (0x14588, 0x414E41544F4C49414E20484945524F474C595048204133343720),
  (0x14589, 0x414E41544F4C49414E20484945524F474C595048204133343820),
  (0x1458A, 0x414E41544F4C49414E20484945524F474C595048204133343920),
  (0x1458B, 0x414E41544F4C49414E20484945524F474C595048204133353020),
  (0x1458C, 0x414E41544F4C49414E20484945524F474C595048204133353120),
  (0x1458D, 0x414E41544F4C49414E20484945524F474C595048204133353220),
  (0x1458E, 0x414E41544F4C49414E20484945524F474C595048204133353320),
  (0x1458F, 0x414E41544F4C49414E20484945524F474C595048204133353420),
  (0x14590, 0x414E41544F4C49414E20484945524F474C595048204133353520),
  (0x14591, 0x414E41544F4C49414E20484945524F474C595048204133353620),
  (0x14592, 0x414E41544F4C49414E20484945524F474C595048204133353720),
  (0x14593, 0x414E41544F4C49414E20484945524F474C595048204133353820),
  (0x14594, 0x414E41544F4C49414E20484945524F474C595048204133353920),
  (0x14595, 0x414E41544F4C49414E20484945524F474C59504820413335394120),
  (0x14596, 0x414E41544F4C49414E20484945524F474C595048204133363020),
  (0x14597, 0x414E41544F4C49414E20484945524F474C595048204133363120),
  (0x14598, 0x414E41544F4C49414E20484945524F474C595048204133363220),
  (0x14599, 0x414E41544F4C49414E20484945524F474C595048204133363320),
  (0x1459A, 0x414E41544F4C49414E20484945524F474C595048204133363420),
  (0x1459B, 0x414E41544F4C49414E20484945524F474C59504820413336344120),
  (0x1459C, 0x414E41544F4C49414E20484945524F474C595048204133363520),
  (0x1459D, 0x414E41544F4C49414E20484945524F474C595048204133363620),
  (0x1459E, 0x414E41544F4C49414E20484945524F474C595048204133363720),
  (0x1459F, 0x414E41544F4C49414E20484945524F474C595048204133363820),
  (0x145A0, 0x414E41544F4C49414E20484945524F474C59504820413336384120),
  (0x145A1, 0x414E41544F4C49414E20484945524F474C595048204133363920),
  (0x145A2, 0x414E41544F4C49414E20484945524F474C595048204133373020),
  (0x145A3, 0x414E41544F4C49414E20484945524F474C595048204133373120),
  (0x145A4, 0x414E41544F4C49414E20484945524F474C59504820413337314120),
  (0x145A5, 0x414E41544F4C49414E20484945524F474C595048204133373220),
  (0x145A6, 0x414E41544F4C49414E20484945524F474C595048204133373320),
  (0x145A7, 0x414E41544F4C49414E20484945524F474C595048204133373420),
  (0x145A8, 0x414E41544F4C49414E20484945524F474C595048204133373520),
  (0x145A9, 0x414E41544F4C49414E20484945524F474C595048204133373620),
  (0x145AA, 0x414E41544F4C49414E20484945524F474C595048204133373720),
  (0x145AB, 0x414E41544F4C49414E20484945524F474C595048204133373820),
  (0x145AC, 0x414E41544F4C49414E20484945524F474C595048204133373920),
  (0x145AD, 0x414E41544F4C49414E20484945524F474C595048204133383020),
  (0x145AE, 0x414E41544F4C49414E20484945524F474C595048204133383120),
  (0x145AF, 0x414E41544F4C49414E20484945524F474C59504820413338314120),
  (0x145B0, 0x414E41544F4C49414E20484945524F474C595048204133383220),
  (0x145B1, 0x414E41544F4C49414E20484945524F474C5950482041333833205241204F5220524920),
  (0x145B2, 0x414E41544F4C49414E20484945524F474C59504820413338334120),
  (0x145B3, 0x414E41544F4C49414E20484945524F474C595048204133383420),
  (0x145B4, 0x414E41544F4C49414E20484945524F474C595048204133383520),
  (0x145B5, 0x414E41544F4C49414E20484945524F474C595048204133383620),
  (0x145B6, 0x414E41544F4C49414E20484945524F474C59504820413338364120),
  (0x145B7, 0x414E41544F4C49414E20484945524F474C595048204133383720),
  (0x145B8, 0x414E41544F4C49414E20484945524F474C595048204133383820),
  (0x145B9, 0x414E41544F4C49414E20484945524F474C595048204133383920),
  (0x145BA, 0x414E41544F4C49414E20484945524F474C595048204133393020),
  (0x145BB, 0x414E41544F4C49414E20484945524F474C595048204133393120),
  (0x145BC, 0x414E41544F4C49414E20484945524F474C595048204133393220),
  (0x145BD, 0x414E41544F4C49414E20484945524F474C595048204133393320454947485420),
  (0x145BE, 0x414E41544F4C49414E20484945524F474C595048204133393420),
  (0x145BF, 0x414E41544F4C49414E20484945524F474C595048204133393520)]
def names_363 : List (Nat × Nat) := [
  (0x145C0, 0x414E41544F4C49414E20484945524F474C595048204133393620),
  (0x145C1, 0x414E41544F4C49414E20484945524F474C595048204133393720),
  (0x145C2, 0x414E41544F4C49414E20484945524F474C595048204133393820),
  (0x145C3, 0x414E41544F4C49414E20484945524F474C595048204133393920),
  (0x145C4, 0x414E41544F4C49414E20484945524F474C595048204134303020),
  (0x145C5, 0x414E41544F4C49414E20484945524F474C595048204134303120),
  (0x145C6, 0x414E41544F4C49414E20484945524F474C595048204134303220),
  (0x145C7, 0x414E41544F4C49414E20484945524F474C595048204134303320),
  (0x145C8, 0x414E41544F4C49414E20484945524F474C595048204134303420),
  (0x145C9, 0x414E41544F4C49414E20484945524F474C595048204134303520),
  (0x145CA, 0x414E41544F4C49414E20484945524F474C595048204134303620),
  (0x145CB, 0x414E41544F4C49414E20484945524F474C595048204134303720),
  (0x145CC, 0x414E41544F4C49414E20484945524F474C595048204134303820),
  (0x145CD, 0x414E41544F4C49414E20484945524F474C595048204134303920),
  (0x145CE, 0x414E41544F4C49414E20484945524F474C595048204134313020424547494E204C4F474F4752414D204D41524B20),
  (0x145CF, 0x414E41544F4C49414E20484945524F474C59504820413431304120454E44204C4F474F4752414D204D41524B20),
  (0x145D0, 0x414E41544F4C49414E20484945524F474C595048204134313120),
  (0x145D1, 0x414E41544F4C49414E20484945524F474C595048204134313220),
  (0x145D2, 0x414E41544F4C49414E20484945524F474C595048204134313320),
  (0x145D3, 0x414E41544F4C49414E20484945524F474C595048204134313420),
  (0x145D4, 0x414E41544F4C49414E20484945524F474C595048204134313520),
  (0x145D5, 0x414E41544F4C49414E20484945524F474C595048204134313620),
  (0x145D6, 0x414E41544F4C49414E20484945524F474C595048204134313720),
  (0x145D7, 0x414E41544F4C49414E20484945524F474C595048204134313820),
  (0x145D8, 0x414E41544F4C49414E20484945524F474C595048204134313920),
  (0x145D9, 0x414E41544F4C49414E20484945524F474C595048204134323020),
  (0x145DA, 0x414E41544F4C49414E20484945524F474C595048204134323120),
  (0x145DB, 0x414E41544F4C49414E20484945524F474C595048204134323220),
  (0x145DC, 0x414E41544F4C49414E20484945524F474C595048204134323320),
  (0x145DD, 0x414E41544F4C49414E20484945524F474C595048204134323420),
  (0x145DE, 0x414E41544F4C49414E20484945524F474C595048204134323520),
  (0x145DF, 0x414E41544F4C49414E20484945524F474C595048204134323620),
  (0x145E0, 0x414E41544F4C49414E20484945524F474C595048204134323720),
  (0x145E1, 0x414E41544F4C49414E20484945524F474C595048204134323820),
  (0x145E2, 0x414E41544F4C49414E20484945524F474C595048204134323920),
  (0x145E3, 0x414E41544F4C49414E20484945524F474C595048204134333020),
  (0x145E4, 0x414E41544F4C49414E20484945524F474C595048204134333120),
  (0x145E5, 0x414E41544F4C49414E20484945524F474C595048204134333220),
  (0x145E6, 0x414E41544F4C49414E20484945524F474C595048204134333320),
  (0x145E7, 0x414E41544F4C49414E20484945524F474C595048204134333420),
  (0x145E8, 0x414E41544F4C49414E20484945524F474C595048204134333520),
  (0x145E9, 0x414E41544F4C49414E20484945524F474C595048204134333620),
  (0x145EA, 0x414E41544F4C49414E20484945524F474C595048204134333720),
  (0x145EB, 0x414E41544F4C49414E20484945524F474C595048204134333820),
  (0x145EC, 0x414E41544F4C49414E20484945524F474C595048204134333920),
  (0x145ED, 0x414E41544F4C49414E20484945524F474C595048204134343020),
  (0x145EE, 0x414E41544F4C49414E20484945524F474C595048204134343120),
  (0x145EF, 0x414E41544F4C49414E20484945524F474C595048204134343220),
  (0x145F0, 0x414E41544F4C49414E20484945524F474C595048204134343320),
  (0x145F1, 0x414E41544F4C49414E20484945524F474C595048204134343420),
  (0x145F2, 0x414E41544F4C49414E20484945524F474C595048204134343520),
  (0x145F3, 0x414E41544F4C49414E20484945524F474C595048204134343620),
  (0x145F4, 0x414E41544F4C49414E20484945524F474C595048204134343720),
  (0x145F5, 0x414E41544F4C49414E20484945524F474C595048204134343820),
  (0x145F6, 0x414E41544F4C49414E20484945524F474C595048204134343920),
  (0x145F7, 0x414E41544F4C49414E20484945524F474C595048204134353020),
  (0x145F8, 0x414E41544F4C49414E20484945524F474C59504820413435304120),
  (0x145F9, 0x414E41544F4C49414E20484945524F474C595048204134353120),
  (0x145FA, 0x414E41544F4C49414E20484945524F474C595048204134353220),
  (0x145FB, 0x414E41544F4C49414E20484945524F474C595048204134353320),
  (0x145FC, 0x414E41544F4C49414E20484945524F474C595048204134353420),
  (0x145FD, 0x414E41544F4C49414E20484945524F474C595048204134353520),
  (0x145FE, 0x414E41544F4C49414E20484945524F474C595048204134353620),
  (0x145FF, 0x414E41544F4C49414E20484945524F474C595048204134353720)]
def names_364 : List (Nat × Nat) := [
  (0x14600, 0x414E41544F4C49414E20484945524F474C59504820413435374120),
  (0x14601, 0x414E41544F4C49414E20484945524F474C595048204134353820),
  (0x14602, 0x414E41544F4C49414E20484945524F474C595048204134353920),
  (0x14603, 0x414E41544F4C49414E20484945524F474C595048204134363020),
  (0x14604, 0x414E41544F4C49414E20484945524F474C595048204134363120),
  (0x14605, 0x414E41544F4C49414E20484945524F474C595048204134363220),
  (0x14606, 0x414E41544F4C49414E20484945524F474C595048204134363320),
  (0x14607, 0x414E41544F4C49414E20484945524F474C595048204134363420),
  (0x14608, 0x414E41544F4C49414E20484945524F474C595048204134363520),
  (0x14609, 0x414E41544F4C49414E20484945524F474C595048204134363620),
  (0x1460A, 0x414E41544F4C49414E20484945524F474C595048204134363720),
  (0x1460B, 0x414E41544F4C49414E20484945524F474C595048204134363820),
  (0x1460C, 0x414E41544F4C49414E20484945524F474C595048204134363920),
  (0x1460D, 0x414E41544F4C49414E20484945524F474C595048204134373020),
  (0x1460E, 0x414E41544F4C49414E20484945524F474C595048204134373120),
  (0x1460F, 0x414E41544F4C49414E20484945524F474C595048204134373220),
  (0x14610, 0x414E41544F4C49414E20484945524F474C595048204134373320),
  (0x14611, 0x414E41544F4C49414E20484945524F474C595048204134373420),
  (0x14612, 0x414E41544F4C49414E20484945524F474C595048204134373520),
  (0x14613, 0x414E41544F4C49414E20484945524F474C595048204134373620),
  (0x14614, 0x414E41544F4C49414E20484945524F474C595048204134373720),
  (0x14615, 0x414E41544F4C49414E20484945524F474C595048204134373820),
  (0x14616, 0x414E41544F4C49414E20484945524F474C595048204134373920),
  (0x14617, 0x414E41544F4C49414E20484945524F474C595048204134383020),
  (0x14618, 0x414E41544F4C49414E20484945524F474C595048204134383120),
  (0x14619, 0x414E41544F4C49414E20484945524F474C595048204134383220),
  (0x1461A, 0x414E41544F4C49414E20484945524F474C595048204134383320),
  (0x1461B, 0x414E41544F4C49414E20484945524F474C595048204134383420),
  (0x1461C, 0x414E41544F4C49414E20484945524F474C595048204134383520),
  (0x1461D, 0x414E41544F4C49414E20484945524F474C595048204134383620),
  (0x1461E, 0x414E41544F4C49414E20484945524F474C595048204134383720),
  (0x1461F, 0x414E41544F4C49414E20484945524F474C595048204134383820),
  (0x14620, 0x414E41544F4C49414E20484945524F474C595048204134383920),
  (0x14621, 0x414E41544F4C49414E20484945524F474C595048204134393020),
  (0x14622, 0x414E41544F4C49414E20484945524F474C595048204134393120),
  (0x14623, 0x414E41544F4C49414E20484945524F474C595048204134393220),
  (0x14624, 0x414E41544F4C49414E20484945524F474C595048204134393320),
  (0x14625, 0x414E41544F4C49414E20484945524F474C595048204134393420),
  (0x14626, 0x414E41544F4C49414E20484945524F474C595048204134393520),
  (0x14627, 0x414E41544F4C49414E20484945524F474C595048204134393620),
  (0x14628, 0x414E41544F4C49414E20484945524F474C595048204134393720),
  (0x14629, 0x414E41544F4C49414E20484945524F474C595048204135303120),
  (0x1462A, 0x414E41544F4C49414E20484945524F474C595048204135303220),
  (0x1462B, 0x414E41544F4C49414E20484945524F474C595048204135303320),
  (0x1462C, 0x414E41544F4C49414E20484945524F474C595048204135303420),
  (0x1462D, 0x414E41544F4C49414E20484945524F474C595048204135303520),
  (0x1462E, 0x414E41544F4C49414E20484945524F474C595048204135303620),
  (0x1462F, 0x414E41544F4C49414E20484945524F474C595048204135303720),
  (0x14630, 0x414E41544F4C49414E20484945524F474C595048204135303820),
  (0x14631, 0x414E41544F4C49414E20484945524F474C595048204135303920),
  (0x14632, 0x414E41544F4C49414E20484945524F474C595048204135313020),
  (0x14633, 0x414E41544F4C49414E20484945524F474C595048204135313120),
  (0x14634, 0x414E41544F4C49414E20484945524F474C595048204135313220),
  (0x14635, 0x414E41544F4C49414E20484945524F474C595048204135313320),
  (0x14636, 0x414E41544F4C49414E20484945524F474C595048204135313420),
  (0x14637, 0x414E41544F4C49414E20484945524F474C595048204135313520),
  (0x14638, 0x414E41544F4C49414E20484945524F474C595048204135313620),
  (0x14639, 0x414E41544F4C49414E20484945524F474C595048204135313720),
  (0x1463A, 0x414E41544F4C49414E20484945524F474C595048204135313820),
  (0x1463B, 0x414E41544F4C49414E20484945524F474C595048204135313920),
  (0x1463C, 0x414E41544F4C49414E20484945524F474C595048204135323020),
  (0x1463D, 0x414E41544F4C49414E20484945524F474C595048204135323120),
  (0x1463E, 0x414E41544F4C49414E20484945524F474C595048204135323220),
  (0x1463F, 0x414E41544F4C49414E20484945524F474C595048204135323320)]
def names_365 : List (Nat × Nat) := [
  (0x14640, 0x414E41544F4C49414E20484945524F474C595048204135323420),
  (0x14641, 0x414E41544F4C49414E20484945524F474C595048204135323520),
  (0x14642, 0x414E41544F4C49414E20484945524F474C595048204135323620),
  (0x14643, 0x414E41544F4C49414E20484945524F474C595048204135323720),
  (0x14644, 0x414E41544F4C49414E20484945524F474C595048204135323820),
  (0x14645, 0x414E41544F4C49414E20484945524F474C595048204135323920),
  (0x14646, 0x414E41544F4C49414E20484945524F474C595048204135333020),
  (0x16800, 0x42414D554D204C45545445522050484153452D41204E474B5545204D464F4E20),
  (0x16801, 0x42414D554D204C45545445522050484153452D4120474249454520464F4E20),
  (0x16802, 0x42414D554D204C45545445522050484153452D4120504F4E204D464F4E2050495041454D474249454520),
  (0x16803, 0x42414D554D204C45545445522050484153452D4120504F4E204D464F4E2050495041454D424120),
  (0x16804, 0x42414D554D204C45545445522050484153452D41204E4141204D464F4E20),
  (0x16805, 0x42414D554D204C45545445522050484153452D4120534855454E534855455420),
  (0x16806, 0x42414D554D204C45545445522050484153452D412054495441204D464F4E20),
  (0x16807, 0x42414D554D204C45545445522050484153452D41204E5A41204D464F4E20),
  (0x16808, 0x42414D554D204C45545445522050484153452D41205348494E4441205041204E4A4920),
  (0x16809, 0x42414D554D204C45545445522050484153452D4120504F4E205041204E4A492050495041454D474249454520),
  (0x1680A, 0x42414D554D204C45545445522050484153452D4120504F4E205041204E4A492050495041454D424120),
  (0x1680B, 0x42414D554D204C45545445522050484153452D41204D41454D42474249454520),
  (0x1680C, 0x42414D554D204C45545445522050484153452D41205455204D41454D424120),
  (0x1680D, 0x42414D554D204C45545445522050484153452D41204E47414E475520),
  (0x1680E, 0x42414D554D204C45545445522050484153452D41204D41454D5645555820),
  (0x1680F, 0x42414D554D204C45545445522050484153452D41204D414E5355414520),
  (0x16810, 0x42414D554D204C45545445522050484153452D41204D56455541454E47414D20),
  (0x16811, 0x42414D554D204C45545445522050484153452D41205345554E59414D20),
  (0x16812, 0x42414D554D204C45545445522050484153452D41204E544F5150454E20),
  (0x16813, 0x42414D554D204C45545445522050484153452D41204B45554B4555544E444120),
  (0x16814, 0x42414D554D204C45545445522050484153452D41204E4B494E444920),
  (0x16815, 0x42414D554D204C45545445522050484153452D412053555520),
  (0x16816, 0x42414D554D204C45545445522050484153452D41204E474B55454E5A45554D20),
  (0x16817, 0x42414D554D204C45545445522050484153452D41204C4150415120),
  (0x16818, 0x42414D554D204C45545445522050484153452D41204C4554204B555420),
  (0x16819, 0x42414D554D204C45545445522050484153452D41204E544150204D46414120),
  (0x1681A, 0x42414D554D204C45545445522050484153452D41204D41454B45555020),
  (0x1681B, 0x42414D554D204C45545445522050484153452D412050415348414520),
  (0x1681C, 0x42414D554D204C45545445522050484153452D412047484555414552414520),
  (0x1681D, 0x42414D554D204C45545445522050484153452D412050414D5348414520),
  (0x1681E, 0x42414D554D204C45545445522050484153452D41204D4F4E204E4747455541455420),
  (0x1681F, 0x42414D554D204C45545445522050484153452D41204E5A554E204D45555420),
  (0x16820, 0x42414D554D204C45545445522050484153452D41205520595551204E414520),
  (0x16821, 0x42414D554D204C45545445522050484153452D412047484555414547484555414520),
  (0x16822, 0x42414D554D204C45545445522050484153452D41204E544150204E54414120),
  (0x16823, 0x42414D554D204C45545445522050484153452D41205349534120),
  (0x16824, 0x42414D554D204C45545445522050484153452D41204D474241534120),
  (0x16825, 0x42414D554D204C45545445522050484153452D41204D45554E4A4F4D4E4445555120),
  (0x16826, 0x42414D554D204C45545445522050484153452D41204D4F4F4D50555120),
  (0x16827, 0x42414D554D204C45545445522050484153452D41204B41464120),
  (0x16828, 0x42414D554D204C45545445522050484153452D41205041204C4545524145574120),
  (0x16829, 0x42414D554D204C45545445522050484153452D41204E4441204C4545524145574120),
  (0x1682A, 0x42414D554D204C45545445522050484153452D412050455420),
  (0x1682B, 0x42414D554D204C45545445522050484153452D41204D41454D4B50454E20),
  (0x1682C, 0x42414D554D204C45545445522050484153452D41204E494B4120),
  (0x1682D, 0x42414D554D204C45545445522050484153452D412050555020),
  (0x1682E, 0x42414D554D204C45545445522050484153452D4120545541455020),
  (0x1682F, 0x42414D554D204C45545445522050484153452D41204C5541455020),
  (0x16830, 0x42414D554D204C45545445522050484153452D4120534F4E4A414D20),
  (0x16831, 0x42414D554D204C45545445522050484153452D412054455554455557454E20),
  (0x16832, 0x42414D554D204C45545445522050484153452D41204D41454E594920),
  (0x16833, 0x42414D554D204C45545445522050484153452D41204B455420),
  (0x16834, 0x42414D554D204C45545445522050484153452D41204E4441414E4747455541455420),
  (0x16835, 0x42414D554D204C45545445522050484153452D41204B554F5120),
  (0x16836, 0x42414D554D204C45545445522050484153452D41204D4F4F4D45555420),
  (0x16837, 0x42414D554D204C45545445522050484153452D41205348554D20),
  (0x16838, 0x42414D554D204C45545445522050484153452D41204C4F4D4D414520)]
def names_366 : List (Nat × Nat) := [
  (0x16839, 0x42414D554D204C45545445522050484153452D41204649524920),
  (0x1683A, 0x42414D554D204C45545445522050484153452D4120524F4D20),
  (0x1683B, 0x42414D554D204C45545445522050484153452D41204B504F5120),
  (0x1683C, 0x42414D554D204C45545445522050484153452D4120534F5120),
  (0x1683D, 0x42414D554D204C45545445522050484153452D41204D415020504945455420),
  (0x1683E, 0x42414D554D204C45545445522050484153452D412053484952414520),
  (0x1683F, 0x42414D554D204C45545445522050484153452D41204E54415020),
  (0x16840, 0x42414D554D204C45545445522050484153452D412053484F51204E534855542059554D20),
  (0x16841, 0x42414D554D204C45545445522050484153452D41204E594954204D4F4E474B455541455120),
  (0x16842, 0x42414D554D204C45545445522050484153452D412050414152414520),
  (0x16843, 0x42414D554D204C45545445522050484153452D41204E4B414152414520),
  (0x16844, 0x42414D554D204C45545445522050484153452D4120554E4B4E4F574E20),
  (0x16845, 0x42414D554D204C45545445522050484153452D41204E4747454E20),
  (0x16846, 0x42414D554D204C45545445522050484153452D41204D4145534920),
  (0x16847, 0x42414D554D204C45545445522050484153452D41204E4A414D20),
  (0x16848, 0x42414D554D204C45545445522050484153452D41204D42414E594920),
  (0x16849, 0x42414D554D204C45545445522050484153452D41204E59455420),
  (0x1684A, 0x42414D554D204C45545445522050484153452D412054455541454E20),
  (0x1684B, 0x42414D554D204C45545445522050484153452D4120534F5420),
  (0x1684C, 0x42414D554D204C45545445522050484153452D41205041414D20),
  (0x1684D, 0x42414D554D204C45545445522050484153452D41204E534849454520),
  (0x1684E, 0x42414D554D204C45545445522050484153452D41204D41454D20),
  (0x1684F, 0x42414D554D204C45545445522050484153452D41204E594920),
  (0x16850, 0x42414D554D204C45545445522050484153452D41204B415120),
  (0x16851, 0x42414D554D204C45545445522050484153452D41204E53484120),
  (0x16852, 0x42414D554D204C45545445522050484153452D412056454520),
  (0x16853, 0x42414D554D204C45545445522050484153452D41204C5520),
  (0x16854, 0x42414D554D204C45545445522050484153452D41204E454E20),
  (0x16855, 0x42414D554D204C45545445522050484153452D41204E415120),
  (0x16856, 0x42414D554D204C45545445522050484153452D41204D42415120),
  (0x16857, 0x42414D554D204C45545445522050484153452D42204E534855455420),
  (0x16858, 0x42414D554D204C45545445522050484153452D42205455204D41454D474249454520),
  (0x16859, 0x42414D554D204C45545445522050484153452D42205349454520),
  (0x1685A, 0x42414D554D204C45545445522050484153452D422053455420545520),
  (0x1685B, 0x42414D554D204C45545445522050484153452D42204C4F4D204E5445554D20),
  (0x1685C, 0x42414D554D204C45545445522050484153452D42204D4241204D41454C454520),
  (0x1685D, 0x42414D554D204C45545445522050484153452D42204B4945454D20),
  (0x1685E, 0x42414D554D204C45545445522050484153452D422059455552414520),
  (0x1685F, 0x42414D554D204C45545445522050484153452D42204D42414152414520),
  (0x16860, 0x42414D554D204C45545445522050484153452D42204B414D20),
  (0x16861, 0x42414D554D204C45545445522050484153452D422050454553484920),
  (0x16862, 0x42414D554D204C45545445522050484153452D422059414655204C4545524145574120),
  (0x16863, 0x42414D554D204C45545445522050484153452D42204C414D204E53485554204E59414D20),
  (0x16864, 0x42414D554D204C45545445522050484153452D42204E5449454520534845554F5120),
  (0x16865, 0x42414D554D204C45545445522050484153452D42204E4455204E4A414120),
  (0x16866, 0x42414D554D204C45545445522050484153452D4220474845554748455541454D20),
  (0x16867, 0x42414D554D204C45545445522050484153452D422050495420),
  (0x16868, 0x42414D554D204C45545445522050484153452D42205455204E5349454520),
  (0x16869, 0x42414D554D204C45545445522050484153452D422053484554204E4A415120),
  (0x1686A, 0x42414D554D204C45545445522050484153452D422053484555414551545520),
  (0x1686B, 0x42414D554D204C45545445522050484153452D42204D464F4E2054455541455120),
  (0x1686C, 0x42414D554D204C45545445522050484153452D42204D424954204D4241414B455420),
  (0x1686D, 0x42414D554D204C45545445522050484153452D42204E5949204E5445554D20),
  (0x1686E, 0x42414D554D204C45545445522050484153452D42204B455550555120),
  (0x1686F, 0x42414D554D204C45545445522050484153452D4220474845554748454E20),
  (0x16870, 0x42414D554D204C45545445522050484153452D42204B45555945555820),
  (0x16871, 0x42414D554D204C45545445522050484153452D42204C41414E414520),
  (0x16872, 0x42414D554D204C45545445522050484153452D4220504152554D20),
  (0x16873, 0x42414D554D204C45545445522050484153452D42205645554D20),
  (0x16874, 0x42414D554D204C45545445522050484153452D42204E474B494E4449204D564F5020),
  (0x16875, 0x42414D554D204C45545445522050484153452D42204E47474555204D425520),
  (0x16876, 0x42414D554D204C45545445522050484153452D4220575541455420),
  (0x16877, 0x42414D554D204C45545445522050484153452D422053414B4555414520),
  (0x16878, 0x42414D554D204C45545445522050484153452D42205441414D20)]
def names_367 : List (Nat × Nat) := [
  (0x16879, 0x42414D554D204C45545445522050484153452D42204D45555120),
  (0x1687A, 0x42414D554D204C45545445522050484153452D42204E4747554F5120),
  (0x1687B, 0x42414D554D204C45545445522050484153452D42204E4747554F51204C4152474520),
  (0x1687C, 0x42414D554D204C45545445522050484153452D42204D464959415120),
  (0x1687D, 0x42414D554D204C45545445522050484153452D422053554520),
  (0x1687E, 0x42414D554D204C45545445522050484153452D42204D424555524920),
  (0x1687F, 0x42414D554D204C45545445522050484153452D42204D4F4E544945454E20),
  (0x16880, 0x42414D554D204C45545445522050484153452D42204E5941454D414520),
  (0x16881, 0x42414D554D204C45545445522050484153452D422050554E4741414D20),
  (0x16882, 0x42414D554D204C45545445522050484153452D42204D455554204E474745455420),
  (0x16883, 0x42414D554D204C45545445522050484153452D42204645555820),
  (0x16884, 0x42414D554D204C45545445522050484153452D42204D42554F5120),
  (0x16885, 0x42414D554D204C45545445522050484153452D422046454520),
  (0x16886, 0x42414D554D204C45545445522050484153452D42204B455541454D20),
  (0x16887, 0x42414D554D204C45545445522050484153452D42204D41204E4A455541454E4120),
  (0x16888, 0x42414D554D204C45545445522050484153452D42204D41204E4A55514120),
  (0x16889, 0x42414D554D204C45545445522050484153452D42204C455420),
  (0x1688A, 0x42414D554D204C45545445522050484153452D42204E474741414D20),
  (0x1688B, 0x42414D554D204C45545445522050484153452D42204E53454E20),
  (0x1688C, 0x42414D554D204C45545445522050484153452D42204D4120),
  (0x1688D, 0x42414D554D204C45545445522050484153452D42204B495120),
  (0x1688E, 0x42414D554D204C45545445522050484153452D42204E474F4D20),
  (0x1688F, 0x42414D554D204C45545445522050484153452D43204E474B5545204D41454D424120),
  (0x16890, 0x42414D554D204C45545445522050484153452D43204E5A4120),
  (0x16891, 0x42414D554D204C45545445522050484153452D432059554D20),
  (0x16892, 0x42414D554D204C45545445522050484153452D432057414E474B554F5120),
  (0x16893, 0x42414D554D204C45545445522050484153452D43204E4747454E20),
  (0x16894, 0x42414D554D204C45545445522050484153452D43204E444555414552454520),
  (0x16895, 0x42414D554D204C45545445522050484153452D43204E474B415120),
  (0x16896, 0x42414D554D204C45545445522050484153452D432047484152414520),
  (0x16897, 0x42414D554D204C45545445522050484153452D43204D4245454B45455420),
  (0x16898, 0x42414D554D204C45545445522050484153452D4320474241594920),
  (0x16899, 0x42414D554D204C45545445522050484153452D43204E594952204D4B5041524151204D45554E20),
  (0x1689A, 0x42414D554D204C45545445522050484153452D43204E5455204D42495420),
  (0x1689B, 0x42414D554D204C45545445522050484153452D43204D4245554D20),
  (0x1689C, 0x42414D554D204C45545445522050484153452D43205049524945454E20),
  (0x1689D, 0x42414D554D204C45545445522050484153452D43204E444F4D425520),
  (0x1689E, 0x42414D554D204C45545445522050484153452D43204D42414120434142424147452D5452454520),
  (0x1689F, 0x42414D554D204C45545445522050484153452D43204B45555348455541455020),
  (0x168A0, 0x42414D554D204C45545445522050484153452D43204748415020),
  (0x168A1, 0x42414D554D204C45545445522050484153452D43204B45554B415120),
  (0x168A2, 0x42414D554D204C45545445522050484153452D43205955204D554F4D414520),
  (0x168A3, 0x42414D554D204C45545445522050484153452D43204E5A45554D20),
  (0x168A4, 0x42414D554D204C45545445522050484153452D43204D42554520),
  (0x168A5, 0x42414D554D204C45545445522050484153452D43204E53455541454E20),
  (0x168A6, 0x42414D554D204C45545445522050484153452D43204D42495420),
  (0x168A7, 0x42414D554D204C45545445522050484153452D43205945555120),
  (0x168A8, 0x42414D554D204C45545445522050484153452D43204B504152415120),
  (0x168A9, 0x42414D554D204C45545445522050484153452D43204B414120),
  (0x168AA, 0x42414D554D204C45545445522050484153452D43205345555820),
  (0x168AB, 0x42414D554D204C45545445522050484153452D43204E4449444120),
  (0x168AC, 0x42414D554D204C45545445522050484153452D43205441415348414520),
  (0x168AD, 0x42414D554D204C45545445522050484153452D43204E4A55455120),
  (0x168AE, 0x42414D554D204C45545445522050484153452D4320544954412059554520),
  (0x168AF, 0x42414D554D204C45545445522050484153452D4320535541455420),
  (0x168B0, 0x42414D554D204C45545445522050484153452D43204E47475541454E204E59414D20),
  (0x168B1, 0x42414D554D204C45545445522050484153452D43205645555820),
  (0x168B2, 0x42414D554D204C45545445522050484153452D43204E414E53414E415120),
  (0x168B3, 0x42414D554D204C45545445522050484153452D43204D41204B45554145524920),
  (0x168B4, 0x42414D554D204C45545445522050484153452D43204E54414120),
  (0x168B5, 0x42414D554D204C45545445522050484153452D43204E4747554F4E20),
  (0x168B6, 0x42414D554D204C45545445522050484153452D43204C415020),
  (0x168B7, 0x42414D554D204C45545445522050484153452D43204D4249524945454E20),
  (0x168B8, 0x42414D554D204C45545445522050484153452D43204D47424153415120)]
def names_368 : List (Nat × Nat) := [
  (0x168B9, 0x42414D554D204C45545445522050484153452D43204E5445554E47424120),
  (0x168BA, 0x42414D554D204C45545445522050484153452D43205445555445555820),
  (0x168BB, 0x42414D554D204C45545445522050484153452D43204E4747554D20),
  (0x168BC, 0x42414D554D204C45545445522050484153452D432046554520),
  (0x168BD, 0x42414D554D204C45545445522050484153452D43204E4445555420),
  (0x168BE, 0x42414D554D204C45545445522050484153452D43204E534120),
  (0x168BF, 0x42414D554D204C45545445522050484153452D43204E5348415120),
  (0x168C0, 0x42414D554D204C45545445522050484153452D432042554E4720),
  (0x168C1, 0x42414D554D204C45545445522050484153452D4320564555414550454E20),
  (0x168C2, 0x42414D554D204C45545445522050484153452D43204D424552414520),
  (0x168C3, 0x42414D554D204C45545445522050484153452D4320525520),
  (0x168C4, 0x42414D554D204C45545445522050484153452D43204E4A41454D20),
  (0x168C5, 0x42414D554D204C45545445522050484153452D43204C414D20),
  (0x168C6, 0x42414D554D204C45545445522050484153452D43205449545541455020),
  (0x168C7, 0x42414D554D204C45545445522050484153452D43204E53554F54204E474F4D20),
  (0x168C8, 0x42414D554D204C45545445522050484153452D43204E4A4545454520),
  (0x168C9, 0x42414D554D204C45545445522050484153452D43204B455420),
  (0x168CA, 0x42414D554D204C45545445522050484153452D43204E47475520),
  (0x168CB, 0x42414D554D204C45545445522050484153452D43204D4145534920),
  (0x168CC, 0x42414D554D204C45545445522050484153452D43204D425541454D20),
  (0x168CD, 0x42414D554D204C45545445522050484153452D43204C5520),
  (0x168CE, 0x42414D554D204C45545445522050484153452D43204B555420),
  (0x168CF, 0x42414D554D204C45545445522050484153452D43204E4A414D20),
  (0x168D0, 0x42414D554D204C45545445522050484153452D43204E474F4D20),
  (0x168D1, 0x42414D554D204C45545445522050484153452D432057555020),
  (0x168D2, 0x42414D554D204C45545445522050484153452D43204E47475545455420),
  (0x168D3, 0x42414D554D204C45545445522050484153452D43204E534F4D20),
  (0x168D4, 0x42414D554D204C45545445522050484153452D43204E54454E20),
  (0x168D5, 0x42414D554D204C45545445522050484153452D43204B554F50204E4B414152414520),
  (0x168D6, 0x42414D554D204C45545445522050484153452D43204E53554E20),
  (0x168D7, 0x42414D554D204C45545445522050484153452D43204E44414D20),
  (0x168D8, 0x42414D554D204C45545445522050484153452D43204D41204E5349454520),
  (0x168D9, 0x42414D554D204C45545445522050484153452D432059414120),
  (0x168DA, 0x42414D554D204C45545445522050484153452D43204E44415020),
  (0x168DB, 0x42414D554D204C45545445522050484153452D4320534855455120),
  (0x168DC, 0x42414D554D204C45545445522050484153452D4320534554464F4E20),
  (0x168DD, 0x42414D554D204C45545445522050484153452D43204D424920),
  (0x168DE, 0x42414D554D204C45545445522050484153452D43204D41454D424120),
  (0x168DF, 0x42414D554D204C45545445522050484153452D43204D42414E594920),
  (0x168E0, 0x42414D554D204C45545445522050484153452D43204B45555345555820),
  (0x168E1, 0x42414D554D204C45545445522050484153452D43204D4245555820),
  (0x168E2, 0x42414D554D204C45545445522050484153452D43204B45554D20),
  (0x168E3, 0x42414D554D204C45545445522050484153452D43204D424141205049434B455420),
  (0x168E4, 0x42414D554D204C45545445522050484153452D43205955574F5120),
  (0x168E5, 0x42414D554D204C45545445522050484153452D43204E4A45555820),
  (0x168E6, 0x42414D554D204C45545445522050484153452D43204D49454520),
  (0x168E7, 0x42414D554D204C45545445522050484153452D43204D55414520),
  (0x168E8, 0x42414D554D204C45545445522050484153452D43205348495120),
  (0x168E9, 0x42414D554D204C45545445522050484153452D43204B454E204C415720),
  (0x168EA, 0x42414D554D204C45545445522050484153452D43204B454E204641544947554520),
  (0x168EB, 0x42414D554D204C45545445522050484153452D43204E47415120),
  (0x168EC, 0x42414D554D204C45545445522050484153452D43204E415120),
  (0x168ED, 0x42414D554D204C45545445522050484153452D43204C495120),
  (0x168EE, 0x42414D554D204C45545445522050484153452D432050494E20),
  (0x168EF, 0x42414D554D204C45545445522050484153452D432050454E20),
  (0x168F0, 0x42414D554D204C45545445522050484153452D432054455420),
  (0x168F1, 0x42414D554D204C45545445522050484153452D44204D42554F20),
  (0x168F2, 0x42414D554D204C45545445522050484153452D442057415020),
  (0x168F3, 0x42414D554D204C45545445522050484153452D44204E4A4920),
  (0x168F4, 0x42414D554D204C45545445522050484153452D44204D464F4E20),
  (0x168F5, 0x42414D554D204C45545445522050484153452D44204E4A49454520),
  (0x168F6, 0x42414D554D204C45545445522050484153452D44204C49454520),
  (0x168F7, 0x42414D554D204C45545445522050484153452D44204E4A45555420),
  (0x168F8, 0x42414D554D204C45545445522050484153452D44204E5348454520)]
def names_369 : List (Nat × Nat) := [
  (0x168F9, 0x42414D554D204C45545445522050484153452D44204E474741414D414520),
  (0x168FA, 0x42414D554D204C45545445522050484153452D44204E59414D20),
  (0x168FB, 0x42414D554D204C45545445522050484153452D4420575541454E20),
  (0x168FC, 0x42414D554D204C45545445522050484153452D44204E474B554E20),
  (0x168FD, 0x42414D554D204C45545445522050484153452D44205348454520),
  (0x168FE, 0x42414D554D204C45545445522050484153452D44204E474B415020),
  (0x168FF, 0x42414D554D204C45545445522050484153452D44204B45554145544D45554E20),
  (0x16900, 0x42414D554D204C45545445522050484153452D44205445555420),
  (0x16901, 0x42414D554D204C45545445522050484153452D442053484555414520),
  (0x16902, 0x42414D554D204C45545445522050484153452D44204E4A415020),
  (0x16903, 0x42414D554D204C45545445522050484153452D442053554520),
  (0x16904, 0x42414D554D204C45545445522050484153452D44204B455420),
  (0x16905, 0x42414D554D204C45545445522050484153452D44205941454D4D414520),
  (0x16906, 0x42414D554D204C45545445522050484153452D44204B554F4D20),
  (0x16907, 0x42414D554D204C45545445522050484153452D442053415020),
  (0x16908, 0x42414D554D204C45545445522050484153452D44204D4645555420),
  (0x16909, 0x42414D554D204C45545445522050484153452D44204E4445555820),
  (0x1690A, 0x42414D554D204C45545445522050484153452D44204D414C4545524920),
  (0x1690B, 0x42414D554D204C45545445522050484153452D44204D45555420),
  (0x1690C, 0x42414D554D204C45545445522050484153452D442053455541455120),
  (0x1690D, 0x42414D554D204C45545445522050484153452D442059454E20),
  (0x1690E, 0x42414D554D204C45545445522050484153452D44204E4A455541454D20),
  (0x1690F, 0x42414D554D204C45545445522050484153452D44204B45554F54204D4255414520),
  (0x16910, 0x42414D554D204C45545445522050484153452D44204E474B4555524920),
  (0x16911, 0x42414D554D204C45545445522050484153452D4420545520),
  (0x16912, 0x42414D554D204C45545445522050484153452D44204748414120),
  (0x16913, 0x42414D554D204C45545445522050484153452D44204E474B59454520),
  (0x16914, 0x42414D554D204C45545445522050484153452D442046455546455541455420),
  (0x16915, 0x42414D554D204C45545445522050484153452D44204E44454520),
  (0x16916, 0x42414D554D204C45545445522050484153452D44204D47424F46554D20),
  (0x16917, 0x42414D554D204C45545445522050484153452D44204C455541455020),
  (0x16918, 0x42414D554D204C45545445522050484153452D44204E444F4E20),
  (0x16919, 0x42414D554D204C45545445522050484153452D44204D4F4E4920),
  (0x1691A, 0x42414D554D204C45545445522050484153452D44204D474245554E20),
  (0x1691B, 0x42414D554D204C45545445522050484153452D44205055555420),
  (0x1691C, 0x42414D554D204C45545445522050484153452D44204D474249454520),
  (0x1691D, 0x42414D554D204C45545445522050484153452D44204D464F20),
  (0x1691E, 0x42414D554D204C45545445522050484153452D44204C554D20),
  (0x1691F, 0x42414D554D204C45545445522050484153452D44204E534945455020),
  (0x16920, 0x42414D554D204C45545445522050484153452D44204D42414120),
  (0x16921, 0x42414D554D204C45545445522050484153452D44204B5741455420),
  (0x16922, 0x42414D554D204C45545445522050484153452D44204E59455420),
  (0x16923, 0x42414D554D204C45545445522050484153452D442054455541454E20),
  (0x16924, 0x42414D554D204C45545445522050484153452D4420534F5420),
  (0x16925, 0x42414D554D204C45545445522050484153452D44205955574F5120),
  (0x16926, 0x42414D554D204C45545445522050484153452D44204B45554D20),
  (0x16927, 0x42414D554D204C45545445522050484153452D44205241454D20),
  (0x16928, 0x42414D554D204C45545445522050484153452D4420544545454520),
  (0x16929, 0x42414D554D204C45545445522050484153452D44204E474B455541455120),
  (0x1692A, 0x42414D554D204C45545445522050484153452D44204D464555414520),
  (0x1692B, 0x42414D554D204C45545445522050484153452D44204E534945455420),
  (0x1692C, 0x42414D554D204C45545445522050484153452D44204B45555020),
  (0x1692D, 0x42414D554D204C45545445522050484153452D442050495020),
  (0x1692E, 0x42414D554D204C45545445522050484153452D442050455554414520),
  (0x1692F, 0x42414D554D204C45545445522050484153452D44204E59554520),
  (0x16930, 0x42414D554D204C45545445522050484153452D44204C455420),
  (0x16931, 0x42414D554D204C45545445522050484153452D44204E474741414D20),
  (0x16932, 0x42414D554D204C45545445522050484153452D44204D4649454520),
  (0x16933, 0x42414D554D204C45545445522050484153452D44204E47475741454E20),
  (0x16934, 0x42414D554D204C45545445522050484153452D442059554F4D20),
  (0x16935, 0x42414D554D204C45545445522050484153452D442050415020),
  (0x16936, 0x42414D554D204C45545445522050484153452D442059554F5020),
  (0x16937, 0x42414D554D204C45545445522050484153452D44204E44414D20),
  (0x16938, 0x42414D554D204C45545445522050484153452D44204E5445554D20)]
def names_370 : List (Nat × Nat) := [
  (0x16939, 0x42414D554D204C45545445522050484153452D44205355414520),
  (0x1693A, 0x42414D554D204C45545445522050484153452D44204B554E20),
  (0x1693B, 0x42414D554D204C45545445522050484153452D44204E474745555820),
  (0x1693C, 0x42414D554D204C45545445522050484153452D44204E474B49454520),
  (0x1693D, 0x42414D554D204C45545445522050484153452D442054554F5420),
  (0x1693E, 0x42414D554D204C45545445522050484153452D44204D45554E20),
  (0x1693F, 0x42414D554D204C45545445522050484153452D44204B555120),
  (0x16940, 0x42414D554D204C45545445522050484153452D44204E53554D20),
  (0x16941, 0x42414D554D204C45545445522050484153452D44205445554E20),
  (0x16942, 0x42414D554D204C45545445522050484153452D44204D41454E4A455420),
  (0x16943, 0x42414D554D204C45545445522050484153452D44204E4747415020),
  (0x16944, 0x42414D554D204C45545445522050484153452D44204C45554D20),
  (0x16945, 0x42414D554D204C45545445522050484153452D44204E4747554F4D20),
  (0x16946, 0x42414D554D204C45545445522050484153452D44204E5348555420),
  (0x16947, 0x42414D554D204C45545445522050484153452D44204E4A55455120),
  (0x16948, 0x42414D554D204C45545445522050484153452D442047484555414520),
  (0x16949, 0x42414D554D204C45545445522050484153452D44204B5520),
  (0x1694A, 0x42414D554D204C45545445522050484153452D442052454E204F4C4420),
  (0x1694B, 0x42414D554D204C45545445522050484153452D442054414520),
  (0x1694C, 0x42414D554D204C45545445522050484153452D4420544F5120),
  (0x1694D, 0x42414D554D204C45545445522050484153452D44204E594920),
  (0x1694E, 0x42414D554D204C45545445522050484153452D442052494920),
  (0x1694F, 0x42414D554D204C45545445522050484153452D44204C4545454520),
  (0x16950, 0x42414D554D204C45545445522050484153452D44204D4545454520),
  (0x16951, 0x42414D554D204C45545445522050484153452D44204D20),
  (0x16952, 0x42414D554D204C45545445522050484153452D442053555520),
  (0x16953, 0x42414D554D204C45545445522050484153452D44204D5520),
  (0x16954, 0x42414D554D204C45545445522050484153452D44205348494920),
  (0x16955, 0x42414D554D204C45545445522050484153452D4420534845555820),
  (0x16956, 0x42414D554D204C45545445522050484153452D44204B59454520),
  (0x16957, 0x42414D554D204C45545445522050484153452D44204E5520),
  (0x16958, 0x42414D554D204C45545445522050484153452D442053485520),
  (0x16959, 0x42414D554D204C45545445522050484153452D44204E54454520),
  (0x1695A, 0x42414D554D204C45545445522050484153452D442050454520),
  (0x1695B, 0x42414D554D204C45545445522050484153452D44204E4920),
  (0x1695C, 0x42414D554D204C45545445522050484153452D442053484F5120),
  (0x1695D, 0x42414D554D204C45545445522050484153452D442050555120),
  (0x1695E, 0x42414D554D204C45545445522050484153452D44204D564F5020),
  (0x1695F, 0x42414D554D204C45545445522050484153452D44204C4F5120),
  (0x16960, 0x42414D554D204C45545445522050484153452D442052454E204D55434820),
  (0x16961, 0x42414D554D204C45545445522050484153452D4420544920),
  (0x16962, 0x42414D554D204C45545445522050484153452D44204E54555520),
  (0x16963, 0x42414D554D204C45545445522050484153452D44204D42414120534556454E20),
  (0x16964, 0x42414D554D204C45545445522050484153452D442053415120),
  (0x16965, 0x42414D554D204C45545445522050484153452D442046414120),
  (0x16966, 0x42414D554D204C45545445522050484153452D45204E44415020),
  (0x16967, 0x42414D554D204C45545445522050484153452D4520544F4F4E20),
  (0x16968, 0x42414D554D204C45545445522050484153452D45204D4245554D20),
  (0x16969, 0x42414D554D204C45545445522050484153452D45204C415020),
  (0x1696A, 0x42414D554D204C45545445522050484153452D4520564F4D20),
  (0x1696B, 0x42414D554D204C45545445522050484153452D45204C4F4F4E20),
  (0x1696C, 0x42414D554D204C45545445522050484153452D452050414120),
  (0x1696D, 0x42414D554D204C45545445522050484153452D4520534F4D20),
  (0x1696E, 0x42414D554D204C45545445522050484153452D452052415120),
  (0x1696F, 0x42414D554D204C45545445522050484153452D45204E5348554F5020),
  (0x16970, 0x42414D554D204C45545445522050484153452D45204E44554E20),
  (0x16971, 0x42414D554D204C45545445522050484153452D45205055414520),
  (0x16972, 0x42414D554D204C45545445522050484153452D452054414D20),
  (0x16973, 0x42414D554D204C45545445522050484153452D45204E474B4120),
  (0x16974, 0x42414D554D204C45545445522050484153452D45204B5045555820),
  (0x16975, 0x42414D554D204C45545445522050484153452D452057554F20),
  (0x16976, 0x42414D554D204C45545445522050484153452D452053454520),
  (0x16977, 0x42414D554D204C45545445522050484153452D45204E4747455541455420),
  (0x16978, 0x42414D554D204C45545445522050484153452D45205041414D20)]
def names_371 : List (Nat × Nat) := [
  (0x16979, 0x42414D554D204C45545445522050484153452D4520544F4F20),
  (0x1697A, 0x42414D554D204C45545445522050484153452D45204B554F5020),
  (0x1697B, 0x42414D554D204C45545445522050484153452D45204C4F4D20),
  (0x1697C, 0x42414D554D204C45545445522050484153452D45204E534849454520),
  (0x1697D, 0x42414D554D204C45545445522050484153452D45204E474F5020),
  (0x1697E, 0x42414D554D204C45545445522050484153452D45204D41454D20),
  (0x1697F, 0x42414D554D204C45545445522050484153452D45204E474B45555820),
  (0x16980, 0x42414D554D204C45545445522050484153452D45204E474F5120),
  (0x16981, 0x42414D554D204C45545445522050484153452D45204E5348554520),
  (0x16982, 0x42414D554D204C45545445522050484153452D452052494D47424120),
  (0x16983, 0x42414D554D204C45545445522050484153452D45204E4A45555820),
  (0x16984, 0x42414D554D204C45545445522050484153452D45205045454D20),
  (0x16985, 0x42414D554D204C45545445522050484153452D452053414120),
  (0x16986, 0x42414D554D204C45545445522050484153452D45204E47475552414520),
  (0x16987, 0x42414D554D204C45545445522050484153452D45204D47424120),
  (0x16988, 0x42414D554D204C45545445522050484153452D4520474845555820),
  (0x16989, 0x42414D554D204C45545445522050484153452D45204E474B455541454D20),
  (0x1698A, 0x42414D554D204C45545445522050484153452D45204E4A41454D4C4920),
  (0x1698B, 0x42414D554D204C45545445522050484153452D45204D415020),
  (0x1698C, 0x42414D554D204C45545445522050484153452D45204C4F4F5420),
  (0x1698D, 0x42414D554D204C45545445522050484153452D45204E47474545454520),
  (0x1698E, 0x42414D554D204C45545445522050484153452D45204E44495120),
  (0x1698F, 0x42414D554D204C45545445522050484153452D45205441454E204E5445554D20),
  (0x16990, 0x42414D554D204C45545445522050484153452D452053455420),
  (0x16991, 0x42414D554D204C45545445522050484153452D452050554D20),
  (0x16992, 0x42414D554D204C45545445522050484153452D45204E44414120534F46544E45535320),
  (0x16993, 0x42414D554D204C45545445522050484153452D45204E474755414553484145204E59414D20),
  (0x16994, 0x42414D554D204C45545445522050484153452D45205949454520),
  (0x16995, 0x42414D554D204C45545445522050484153452D4520474845554E20),
  (0x16996, 0x42414D554D204C45545445522050484153452D45205455414520),
  (0x16997, 0x42414D554D204C45545445522050484153452D4520594555414520),
  (0x16998, 0x42414D554D204C45545445522050484153452D4520504F20),
  (0x16999, 0x42414D554D204C45545445522050484153452D452054554D414520),
  (0x1699A, 0x42414D554D204C45545445522050484153452D45204B4555414520),
  (0x1699B, 0x42414D554D204C45545445522050484153452D4520535541454E20),
  (0x1699C, 0x42414D554D204C45545445522050484153452D452054455541455120),
  (0x1699D, 0x42414D554D204C45545445522050484153452D4520564555414520),
  (0x1699E, 0x42414D554D204C45545445522050484153452D45205745555820),
  (0x1699F, 0x42414D554D204C45545445522050484153452D45204C41414D20),
  (0x169A0, 0x42414D554D204C45545445522050484153452D4520505520),
  (0x169A1, 0x42414D554D204C45545445522050484153452D45205441415120),
  (0x169A2, 0x42414D554D204C45545445522050484153452D4520474841414D414520),
  (0x169A3, 0x42414D554D204C45545445522050484153452D45204E4745555245555420),
  (0x169A4, 0x42414D554D204C45545445522050484153452D45205348455541455120),
  (0x169A5, 0x42414D554D204C45545445522050484153452D45204D4742454E20),
  (0x169A6, 0x42414D554D204C45545445522050484153452D45204D42454520),
  (0x169A7, 0x42414D554D204C45545445522050484153452D45204E5A415120),
  (0x169A8, 0x42414D554D204C45545445522050484153452D45204E4B4F4D20),
  (0x169A9, 0x42414D554D204C45545445522050484153452D45204742455420),
  (0x169AA, 0x42414D554D204C45545445522050484153452D452054554D20),
  (0x169AB, 0x42414D554D204C45545445522050484153452D45204B55455420),
  (0x169AC, 0x42414D554D204C45545445522050484153452D452059415020),
  (0x169AD, 0x42414D554D204C45545445522050484153452D45204E594920434C454156455220),
  (0x169AE, 0x42414D554D204C45545445522050484153452D452059495420),
  (0x169AF, 0x42414D554D204C45545445522050484153452D45204D4645555120),
  (0x169B0, 0x42414D554D204C45545445522050484153452D45204E4449415120),
  (0x169B1, 0x42414D554D204C45545445522050484153452D4520504945455120),
  (0x169B2, 0x42414D554D204C45545445522050484153452D45205955455120),
  (0x169B3, 0x42414D554D204C45545445522050484153452D45204C455541454D20),
  (0x169B4, 0x42414D554D204C45545445522050484153452D452046554520),
  (0x169B5, 0x42414D554D204C45545445522050484153452D4520474245555820),
  (0x169B6, 0x42414D554D204C45545445522050484153452D45204E474B555020),
  (0x169B7, 0x42414D554D204C45545445522050484153452D45204B455420),
  (0x169B8, 0x42414D554D204C45545445522050484153452D45204D414520)]
def names_372 : List (Nat × Nat) := [
  (0x169B9, 0x42414D554D204C45545445522050484153452D45204E474B41414D4920),
  (0x169BA, 0x42414D554D204C45545445522050484153452D45204748455420),
  (0x169BB, 0x42414D554D204C45545445522050484153452D4520464120),
  (0x169BC, 0x42414D554D204C45545445522050484153452D45204E54554D20),
  (0x169BD, 0x42414D554D204C45545445522050484153452D45205045555420),
  (0x169BE, 0x42414D554D204C45545445522050484153452D45205945554D20),
  (0x169BF, 0x42414D554D204C45545445522050484153452D45204E47474555414520),
  (0x169C0, 0x42414D554D204C45545445522050484153452D45204E5949204245545745454E20),
  (0x169C1, 0x42414D554D204C45545445522050484153452D45204E5A555120),
  (0x169C2, 0x42414D554D204C45545445522050484153452D4520504F4F4E20),
  (0x169C3, 0x42414D554D204C45545445522050484153452D45204D49454520),
  (0x169C4, 0x42414D554D204C45545445522050484153452D45204655455420),
  (0x169C5, 0x42414D554D204C45545445522050484153452D45204E414520),
  (0x169C6, 0x42414D554D204C45545445522050484153452D45204D55414520),
  (0x169C7, 0x42414D554D204C45545445522050484153452D452047484555414520),
  (0x169C8, 0x42414D554D204C45545445522050484153452D45204655204920),
  (0x169C9, 0x42414D554D204C45545445522050484153452D45204D564920),
  (0x169CA, 0x42414D554D204C45545445522050484153452D45205055415120),
  (0x169CB, 0x42414D554D204C45545445522050484153452D45204E474B554D20),
  (0x169CC, 0x42414D554D204C45545445522050484153452D45204B555420),
  (0x169CD, 0x42414D554D204C45545445522050484153452D45205049455420),
  (0x169CE, 0x42414D554D204C45545445522050484153452D45204E54415020),
  (0x169CF, 0x42414D554D204C45545445522050484153452D452059455541455420),
  (0x169D0, 0x42414D554D204C45545445522050484153452D45204E4747555020),
  (0x169D1, 0x42414D554D204C45545445522050484153452D452050412050454F504C4520),
  (0x169D2, 0x42414D554D204C45545445522050484153452D452046552043414C4C20),
  (0x169D3, 0x42414D554D204C45545445522050484153452D4520464F4D20),
  (0x169D4, 0x42414D554D204C45545445522050484153452D45204E4A454520),
  (0x169D5, 0x42414D554D204C45545445522050484153452D45204120),
  (0x169D6, 0x42414D554D204C45545445522050484153452D4520544F5120),
  (0x169D7, 0x42414D554D204C45545445522050484153452D45204F20),
  (0x169D8, 0x42414D554D204C45545445522050484153452D45204920),
  (0x169D9, 0x42414D554D204C45545445522050484153452D45204C415120),
  (0x169DA, 0x42414D554D204C45545445522050484153452D4520504120504C5552414C20),
  (0x169DB, 0x42414D554D204C45545445522050484153452D452054414120),
  (0x169DC, 0x42414D554D204C45545445522050484153452D452054415120),
  (0x169DD, 0x42414D554D204C45545445522050484153452D45204E444141204D5920484F55534520),
  (0x169DE, 0x42414D554D204C45545445522050484153452D45205348495120),
  (0x169DF, 0x42414D554D204C45545445522050484153452D45205945555820),
  (0x169E0, 0x42414D554D204C45545445522050484153452D45204E4755414520),
  (0x169E1, 0x42414D554D204C45545445522050484153452D4520595541454E20),
  (0x169E2, 0x42414D554D204C45545445522050484153452D4520594F51205357494D4D494E4720),
  (0x169E3, 0x42414D554D204C45545445522050484153452D4520594F5120434F56455220),
  (0x169E4, 0x42414D554D204C45545445522050484153452D452059555120),
  (0x169E5, 0x42414D554D204C45545445522050484153452D452059554E20),
  (0x169E6, 0x42414D554D204C45545445522050484153452D45204B45555820),
  (0x169E7, 0x42414D554D204C45545445522050484153452D45205045555820),
  (0x169E8, 0x42414D554D204C45545445522050484153452D45204E4A45452045504F434820),
  (0x169E9, 0x42414D554D204C45545445522050484153452D452050554520),
  (0x169EA, 0x42414D554D204C45545445522050484153452D452057554520),
  (0x169EB, 0x42414D554D204C45545445522050484153452D452046454520),
  (0x169EC, 0x42414D554D204C45545445522050484153452D452056454520),
  (0x169ED, 0x42414D554D204C45545445522050484153452D45204C5520),
  (0x169EE, 0x42414D554D204C45545445522050484153452D45204D4920),
  (0x169EF, 0x42414D554D204C45545445522050484153452D45205245555820),
  (0x169F0, 0x42414D554D204C45545445522050484153452D452052414520),
  (0x169F1, 0x42414D554D204C45545445522050484153452D45204E475541455420),
  (0x169F2, 0x42414D554D204C45545445522050484153452D45204E474120),
  (0x169F3, 0x42414D554D204C45545445522050484153452D452053484F20),
  (0x169F4, 0x42414D554D204C45545445522050484153452D452053484F5120),
  (0x169F5, 0x42414D554D204C45545445522050484153452D452046552052454D45445920),
  (0x169F6, 0x42414D554D204C45545445522050484153452D45204E4120),
  (0x169F7, 0x42414D554D204C45545445522050484153452D4520504920),
  (0x169F8, 0x42414D554D204C45545445522050484153452D45204C4F5120)]
def names_373 : List (Nat × Nat) := [
  (0x169F9, 0x42414D554D204C45545445522050484153452D45204B4F20),
  (0x169FA, 0x42414D554D204C45545445522050484153452D45204D454E20),
  (0x169FB, 0x42414D554D204C45545445522050484153452D45204D4120),
  (0x169FC, 0x42414D554D204C45545445522050484153452D45204D415120),
  (0x169FD, 0x42414D554D204C45545445522050484153452D452054455520),
  (0x169FE, 0x42414D554D204C45545445522050484153452D45204B4920),
  (0x169FF, 0x42414D554D204C45545445522050484153452D45204D4F4E20),
  (0x16A00, 0x42414D554D204C45545445522050484153452D452054454E20),
  (0x16A01, 0x42414D554D204C45545445522050484153452D452046415120),
  (0x16A02, 0x42414D554D204C45545445522050484153452D452047484F4D20),
  (0x16A03, 0x42414D554D204C45545445522050484153452D46204B4120),
  (0x16A04, 0x42414D554D204C45545445522050484153452D46205520),
  (0x16A05, 0x42414D554D204C45545445522050484153452D46204B5520),
  (0x16A06, 0x42414D554D204C45545445522050484153452D4620454520),
  (0x16A07, 0x42414D554D204C45545445522050484153452D462052454520),
  (0x16A08, 0x42414D554D204C45545445522050484153452D462054414520),
  (0x16A09, 0x42414D554D204C45545445522050484153452D46204E594920),
  (0x16A0A, 0x42414D554D204C45545445522050484153452D46204C4120),
  (0x16A0B, 0x42414D554D204C45545445522050484153452D462052494920),
  (0x16A0C, 0x42414D554D204C45545445522050484153452D46205249454520),
  (0x16A0D, 0x42414D554D204C45545445522050484153452D46204D4545454520),
  (0x16A0E, 0x42414D554D204C45545445522050484153452D462054414120),
  (0x16A0F, 0x42414D554D204C45545445522050484153452D46204E44414120),
  (0x16A10, 0x42414D554D204C45545445522050484153452D46204E4A41454D20),
  (0x16A11, 0x42414D554D204C45545445522050484153452D46204D20),
  (0x16A12, 0x42414D554D204C45545445522050484153452D462053555520),
  (0x16A13, 0x42414D554D204C45545445522050484153452D46205348494920),
  (0x16A14, 0x42414D554D204C45545445522050484153452D4620534920),
  (0x16A15, 0x42414D554D204C45545445522050484153452D46205345555820),
  (0x16A16, 0x42414D554D204C45545445522050484153452D46204B59454520),
  (0x16A17, 0x42414D554D204C45545445522050484153452D46204B455420),
  (0x16A18, 0x42414D554D204C45545445522050484153452D46204E55414520),
  (0x16A19, 0x42414D554D204C45545445522050484153452D46204E5520),
  (0x16A1A, 0x42414D554D204C45545445522050484153452D46204E4A55414520),
  (0x16A1B, 0x42414D554D204C45545445522050484153452D4620594F5120),
  (0x16A1C, 0x42414D554D204C45545445522050484153452D462053485520),
  (0x16A1D, 0x42414D554D204C45545445522050484153452D4620594120),
  (0x16A1E, 0x42414D554D204C45545445522050484153452D46204E53484120),
  (0x16A1F, 0x42414D554D204C45545445522050484153452D46205045555820),
  (0x16A20, 0x42414D554D204C45545445522050484153452D46204E54454520),
  (0x16A21, 0x42414D554D204C45545445522050484153452D462057554520),
  (0x16A22, 0x42414D554D204C45545445522050484153452D462050454520),
  (0x16A23, 0x42414D554D204C45545445522050484153452D4620525520),
  (0x16A24, 0x42414D554D204C45545445522050484153452D46204E4920),
  (0x16A25, 0x42414D554D204C45545445522050484153452D46205245555820),
  (0x16A26, 0x42414D554D204C45545445522050484153452D46204B454E20),
  (0x16A27, 0x42414D554D204C45545445522050484153452D46204E474B5741454E20),
  (0x16A28, 0x42414D554D204C45545445522050484153452D46204E47474120),
  (0x16A29, 0x42414D554D204C45545445522050484153452D462053484F20),
  (0x16A2A, 0x42414D554D204C45545445522050484153452D46205055414520),
  (0x16A2B, 0x42414D554D204C45545445522050484153452D4620464F4D20),
  (0x16A2C, 0x42414D554D204C45545445522050484153452D4620574120),
  (0x16A2D, 0x42414D554D204C45545445522050484153452D46204C4920),
  (0x16A2E, 0x42414D554D204C45545445522050484153452D46204C4F5120),
  (0x16A2F, 0x42414D554D204C45545445522050484153452D46204B4F20),
  (0x16A30, 0x42414D554D204C45545445522050484153452D46204D42454E20),
  (0x16A31, 0x42414D554D204C45545445522050484153452D462052454E20),
  (0x16A32, 0x42414D554D204C45545445522050484153452D46204D4120),
  (0x16A33, 0x42414D554D204C45545445522050484153452D46204D4F20),
  (0x16A34, 0x42414D554D204C45545445522050484153452D46204D42414120),
  (0x16A35, 0x42414D554D204C45545445522050484153452D462054455420),
  (0x16A36, 0x42414D554D204C45545445522050484153452D46204B504120),
  (0x16A37, 0x42414D554D204C45545445522050484153452D462053414D424120),
  (0x16A38, 0x42414D554D204C45545445522050484153452D46205655455120)]
def names_374 : List (Nat × Nat) := [
  (0x16A40, 0x4D524F204C455454455220544120),
  (0x16A41, 0x4D524F204C4554544552204E474920),
  (0x16A42, 0x4D524F204C455454455220594F20),
  (0x16A43, 0x4D524F204C4554544552204D494D20),
  (0x16A44, 0x4D524F204C455454455220424120),
  (0x16A45, 0x4D524F204C455454455220444120),
  (0x16A46, 0x4D524F204C4554544552204120),
  (0x16A47, 0x4D524F204C45545445522050484920),
  (0x16A48, 0x4D524F204C4554544552204B48414920),
  (0x16A49, 0x4D524F204C45545445522048414F20),
  (0x16A4A, 0x4D524F204C45545445522044414920),
  (0x16A4B, 0x4D524F204C45545445522043485520),
  (0x16A4C, 0x4D524F204C4554544552204B4541414520),
  (0x16A4D, 0x4D524F204C4554544552204F4C20),
  (0x16A4E, 0x4D524F204C4554544552204D41454D20),
  (0x16A4F, 0x4D524F204C4554544552204E494E20),
  (0x16A50, 0x4D524F204C455454455220504120),
  (0x16A51, 0x4D524F204C4554544552204F4F20),
  (0x16A52, 0x4D524F204C4554544552204F20),
  (0x16A53, 0x4D524F204C455454455220524F20),
  (0x16A54, 0x4D524F204C45545445522053484920),
  (0x16A55, 0x4D524F204C4554544552205448454120),
  (0x16A56, 0x4D524F204C455454455220454120),
  (0x16A57, 0x4D524F204C455454455220574120),
  (0x16A58, 0x4D524F204C4554544552204520),
  (0x16A59, 0x4D524F204C4554544552204B4F20),
  (0x16A5A, 0x4D524F204C4554544552204C414E20),
  (0x16A5B, 0x4D524F204C4554544552204C4120),
  (0x16A5C, 0x4D524F204C45545445522048414920),
  (0x16A5D, 0x4D524F204C455454455220524920),
  (0x16A5E, 0x4D524F204C45545445522054454B20),
  (0x16A60, 0x4D524F204449474954205A45524F20),
  (0x16A61, 0x4D524F204449474954204F4E4520),
  (0x16A62, 0x4D524F2044494749542054574F20),
  (0x16A63, 0x4D524F20444947495420544852454520),
  (0x16A64, 0x4D524F20444947495420464F555220),
  (0x16A65, 0x4D524F204449474954204649564520),
  (0x16A66, 0x4D524F2044494749542053495820),
  (0x16A67, 0x4D524F20444947495420534556454E20),
  (0x16A68, 0x4D524F20444947495420454947485420),
  (0x16A69, 0x4D524F204449474954204E494E4520),
  (0x16A6E, 0x4D524F2044414E444120),
  (0x16A6F, 0x4D524F20444F55424C452044414E444120),
  (0x16AD0, 0x424153534120564148204C455454455220454E4E4920),
  (0x16AD1, 0x424153534120564148204C4554544552204B4120),
  (0x16AD2, 0x424153534120564148204C455454455220534520),
  (0x16AD3, 0x424153534120564148204C455454455220464120),
  (0x16AD4, 0x424153534120564148204C4554544552204D424520),
  (0x16AD5, 0x424153534120564148204C45545445522059494520),
  (0x16AD6, 0x424153534120564148204C45545445522047414820),
  (0x16AD7, 0x424153534120564148204C4554544552204448494920),
  (0x16AD8, 0x424153534120564148204C4554544552204B50414820),
  (0x16AD9, 0x424153534120564148204C4554544552204A4F20),
  (0x16ADA, 0x424153534120564148204C4554544552204857414820),
  (0x16ADB, 0x424153534120564148204C455454455220574120),
  (0x16ADC, 0x424153534120564148204C4554544552205A4F20),
  (0x16ADD, 0x424153534120564148204C45545445522047425520),
  (0x16ADE, 0x424153534120564148204C455454455220444F20),
  (0x16ADF, 0x424153534120564148204C455454455220434520),
  (0x16AE0, 0x424153534120564148204C45545445522055575520),
  (0x16AE1, 0x424153534120564148204C455454455220544F20),
  (0x16AE2, 0x424153534120564148204C455454455220424120),
  (0x16AE3, 0x424153534120564148204C455454455220565520),
  (0x16AE4, 0x424153534120564148204C4554544552205945494E20)]
def names_375 : List (Nat × Nat) := [
  (0x16AE5, 0x424153534120564148204C455454455220504120),
  (0x16AE6, 0x424153534120564148204C455454455220574144444120),
  (0x16AE7, 0x424153534120564148204C4554544552204120),
  (0x16AE8, 0x424153534120564148204C4554544552204F20),
  (0x16AE9, 0x424153534120564148204C4554544552204F4F20),
  (0x16AEA, 0x424153534120564148204C4554544552205520),
  (0x16AEB, 0x424153534120564148204C455454455220454520),
  (0x16AEC, 0x424153534120564148204C4554544552204520),
  (0x16AED, 0x424153534120564148204C4554544552204920),
  (0x16AF0, 0x42415353412056414820434F4D42494E494E47204849474820544F4E4520),
  (0x16AF1, 0x42415353412056414820434F4D42494E494E47204C4F5720544F4E4520),
  (0x16AF2, 0x42415353412056414820434F4D42494E494E47204D494420544F4E4520),
  (0x16AF3, 0x42415353412056414820434F4D42494E494E47204C4F572D4D494420544F4E4520),
  (0x16AF4, 0x42415353412056414820434F4D42494E494E4720484947482D4C4F5720544F4E4520),
  (0x16AF5, 0x4241535341205641482046554C4C2053544F5020),
  (0x16B00, 0x50414841574820484D4F4E4720564F57454C204B45454220),
  (0x16B01, 0x50414841574820484D4F4E4720564F57454C204B45455620),
  (0x16B02, 0x50414841574820484D4F4E4720564F57454C204B494220),
  (0x16B03, 0x50414841574820484D4F4E4720564F57454C204B495620),
  (0x16B04, 0x50414841574820484D4F4E4720564F57454C204B41554220),
  (0x16B05, 0x50414841574820484D4F4E4720564F57454C204B41555620),
  (0x16B06, 0x50414841574820484D4F4E4720564F57454C204B554220),
  (0x16B07, 0x50414841574820484D4F4E4720564F57454C204B555620),
  (0x16B08, 0x50414841574820484D4F4E4720564F57454C204B454220),
  (0x16B09, 0x50414841574820484D4F4E4720564F57454C204B455620),
  (0x16B0A, 0x50414841574820484D4F4E4720564F57454C204B41494220),
  (0x16B0B, 0x50414841574820484D4F4E4720564F57454C204B41495620),
  (0x16B0C, 0x50414841574820484D4F4E4720564F57454C204B4F4F4220),
  (0x16B0D, 0x50414841574820484D4F4E4720564F57454C204B4F4F5620),
  (0x16B0E, 0x50414841574820484D4F4E4720564F57454C204B41574220),
  (0x16B0F, 0x50414841574820484D4F4E4720564F57454C204B41575620),
  (0x16B10, 0x50414841574820484D4F4E4720564F57454C204B55414220),
  (0x16B11, 0x50414841574820484D4F4E4720564F57454C204B55415620),
  (0x16B12, 0x50414841574820484D4F4E4720564F57454C204B4F4220),
  (0x16B13, 0x50414841574820484D4F4E4720564F57454C204B4F5620),
  (0x16B14, 0x50414841574820484D4F4E4720564F57454C204B49414220),
  (0x16B15, 0x50414841574820484D4F4E4720564F57454C204B49415620),
  (0x16B16, 0x50414841574820484D4F4E4720564F57454C204B414220),
  (0x16B17, 0x50414841574820484D4F4E4720564F57454C204B415620),
  (0x16B18, 0x50414841574820484D4F4E4720564F57454C204B574220),
  (0x16B19, 0x50414841574820484D4F4E4720564F57454C204B575620),
  (0x16B1A, 0x50414841574820484D4F4E4720564F57454C204B41414220),
  (0x16B1B, 0x50414841574820484D4F4E4720564F57454C204B41415620),
  (0x16B1C, 0x50414841574820484D4F4E4720434F4E534F4E414E542056415520),
  (0x16B1D, 0x50414841574820484D4F4E4720434F4E534F4E414E54204E5453415520),
  (0x16B1E, 0x50414841574820484D4F4E4720434F4E534F4E414E54204C415520),
  (0x16B1F, 0x50414841574820484D4F4E4720434F4E534F4E414E542048415520),
  (0x16B20, 0x50414841574820484D4F4E4720434F4E534F4E414E54204E4C415520),
  (0x16B21, 0x50414841574820484D4F4E4720434F4E534F4E414E542052415520),
  (0x16B22, 0x50414841574820484D4F4E4720434F4E534F4E414E54204E4B415520),
  (0x16B23, 0x50414841574820484D4F4E4720434F4E534F4E414E54205148415520),
  (0x16B24, 0x50414841574820484D4F4E4720434F4E534F4E414E542059415520),
  (0x16B25, 0x50414841574820484D4F4E4720434F4E534F4E414E5420484C415520),
  (0x16B26, 0x50414841574820484D4F4E4720434F4E534F4E414E54204D415520),
  (0x16B27, 0x50414841574820484D4F4E4720434F4E534F4E414E54204348415520),
  (0x16B28, 0x50414841574820484D4F4E4720434F4E534F4E414E54204E4348415520),
  (0x16B29, 0x50414841574820484D4F4E4720434F4E534F4E414E5420484E415520),
  (0x16B2A, 0x50414841574820484D4F4E4720434F4E534F4E414E5420504C48415520),
  (0x16B2B, 0x50414841574820484D4F4E4720434F4E534F4E414E54204E5448415520),
  (0x16B2C, 0x50414841574820484D4F4E4720434F4E534F4E414E54204E415520),
  (0x16B2D, 0x50414841574820484D4F4E4720434F4E534F4E414E5420415520),
  (0x16B2E, 0x50414841574820484D4F4E4720434F4E534F4E414E542058415520),
  (0x16B2F, 0x50414841574820484D4F4E4720434F4E534F4E414E542043415520),
  (0x16B30, 0x50414841574820484D4F4E47204D41524B2043494D2054554220)]
def names_376 : List (Nat × Nat) := [
  (0x16B31, 0x50414841574820484D4F4E47204D41524B2043494D20534F20),
  (0x16B32, 0x50414841574820484D4F4E47204D41524B2043494D204B455320),
  (0x16B33, 0x50414841574820484D4F4E47204D41524B2043494D204B48415620),
  (0x16B34, 0x50414841574820484D4F4E47204D41524B2043494D205355414D20),
  (0x16B35, 0x50414841574820484D4F4E47204D41524B2043494D20484F4D20),
  (0x16B36, 0x50414841574820484D4F4E47204D41524B2043494D205441554D20),
  (0x16B37, 0x50414841574820484D4F4E47205349474E20564F532054484F4D20),
  (0x16B38, 0x50414841574820484D4F4E47205349474E20564F53205453484142204345454220),
  (0x16B39, 0x50414841574820484D4F4E47205349474E2043494D20434845454D20),
  (0x16B3A, 0x50414841574820484D4F4E47205349474E20564F5320544849414220),
  (0x16B3B, 0x50414841574820484D4F4E47205349474E20564F53204645454D20),
  (0x16B3C, 0x50414841574820484D4F4E47205349474E20585945454D204E5458495620),
  (0x16B3D, 0x50414841574820484D4F4E47205349474E20585945454D2052484F20),
  (0x16B3E, 0x50414841574820484D4F4E47205349474E20585945454D20544F5620),
  (0x16B3F, 0x50414841574820484D4F4E47205349474E20585945454D204641494220),
  (0x16B40, 0x50414841574820484D4F4E47205349474E20564F53205345455620),
  (0x16B41, 0x50414841574820484D4F4E47205349474E204D45454A205355414220),
  (0x16B42, 0x50414841574820484D4F4E47205349474E20564F53204E52554120),
  (0x16B43, 0x50414841574820484D4F4E47205349474E2049422059414D20),
  (0x16B44, 0x50414841574820484D4F4E47205349474E205841555320),
  (0x16B45, 0x50414841574820484D4F4E47205349474E2043494D2054534F5620524F4720),
  (0x16B50, 0x50414841574820484D4F4E47204449474954205A45524F20),
  (0x16B51, 0x50414841574820484D4F4E47204449474954204F4E4520),
  (0x16B52, 0x50414841574820484D4F4E472044494749542054574F20),
  (0x16B53, 0x50414841574820484D4F4E4720444947495420544852454520),
  (0x16B54, 0x50414841574820484D4F4E4720444947495420464F555220),
  (0x16B55, 0x50414841574820484D4F4E47204449474954204649564520),
  (0x16B56, 0x50414841574820484D4F4E472044494749542053495820),
  (0x16B57, 0x50414841574820484D4F4E4720444947495420534556454E20),
  (0x16B58, 0x50414841574820484D4F4E4720444947495420454947485420),
  (0x16B59, 0x50414841574820484D4F4E47204449474954204E494E4520),
  (0x16B5B, 0x50414841574820484D4F4E47204E554D4245522054454E5320),
  (0x16B5C, 0x50414841574820484D4F4E47204E554D4245522048554E445245445320),
  (0x16B5D, 0x50414841574820484D4F4E47204E554D4245522054454E2054484F5553414E445320),
  (0x16B5E, 0x50414841574820484D4F4E47204E554D424552204D494C4C494F4E5320),
  (0x16B5F, 0x50414841574820484D4F4E47204E554D4245522048554E44524544204D494C4C494F4E5320),
  (0x16B60, 0x50414841574820484D4F4E47204E554D4245522054454E2042494C4C494F4E5320),
  (0x16B61, 0x50414841574820484D4F4E47204E554D424552205452494C4C494F4E5320),
  (0x16B63, 0x50414841574820484D4F4E47205349474E20564F53204C554220),
  (0x16B64, 0x50414841574820484D4F4E47205349474E2058594F4F20),
  (0x16B65, 0x50414841574820484D4F4E47205349474E20484C4920),
  (0x16B66, 0x50414841574820484D4F4E47205349474E2054484952442D535441474520484C4920),
  (0x16B67, 0x50414841574820484D4F4E47205349474E205A574A205448414A20),
  (0x16B68, 0x50414841574820484D4F4E47205349474E20484E554220),
  (0x16B69, 0x50414841574820484D4F4E47205349474E204E51494720),
  (0x16B6A, 0x50414841574820484D4F4E47205349474E205849414220),
  (0x16B6B, 0x50414841574820484D4F4E47205349474E204E54554A20),
  (0x16B6C, 0x50414841574820484D4F4E47205349474E20415620),
  (0x16B6D, 0x50414841574820484D4F4E47205349474E2054584845454A204345455620),
  (0x16B6E, 0x50414841574820484D4F4E47205349474E204D45454A20545345454220),
  (0x16B6F, 0x50414841574820484D4F4E47205349474E2054415520),
  (0x16B70, 0x50414841574820484D4F4E47205349474E204C4F5320),
  (0x16B71, 0x50414841574820484D4F4E47205349474E204D555320),
  (0x16B72, 0x50414841574820484D4F4E47205349474E2043494D2048414953204C5553204E544F47204E544F4720),
  (0x16B73, 0x50414841574820484D4F4E47205349474E2043494D204355414D205453484F4F4A20),
  (0x16B74, 0x50414841574820484D4F4E47205349474E2043494D205458575620),
  (0x16B75, 0x50414841574820484D4F4E47205349474E2043494D2054585756204348575620),
  (0x16B76, 0x50414841574820484D4F4E47205349474E2043494D20505542204441574220),
  (0x16B77, 0x50414841574820484D4F4E47205349474E2043494D204E52455320544F5320),
  (0x16B7D, 0x50414841574820484D4F4E4720434C414E205349474E2054534845454A20),
  (0x16B7E, 0x50414841574820484D4F4E4720434C414E205349474E205945454720),
  (0x16B7F, 0x50414841574820484D4F4E4720434C414E205349474E204C495320),
  (0x16B80, 0x50414841574820484D4F4E4720434C414E205349474E204C41554A20),
  (0x16B81, 0x50414841574820484D4F4E4720434C414E205349474E2058594F4F4A20)]
def names_377 : List (Nat × Nat) := [
  (0x16B82, 0x50414841574820484D4F4E4720434C414E205349474E204B4F4F20),
  (0x16B83, 0x50414841574820484D4F4E4720434C414E205349474E204841574A20),
  (0x16B84, 0x50414841574820484D4F4E4720434C414E205349474E204D55415320),
  (0x16B85, 0x50414841574820484D4F4E4720434C414E205349474E2054484F4A20),
  (0x16B86, 0x50414841574820484D4F4E4720434C414E205349474E205453414220),
  (0x16B87, 0x50414841574820484D4F4E4720434C414E205349474E205048414220),
  (0x16B88, 0x50414841574820484D4F4E4720434C414E205349474E204B48414220),
  (0x16B89, 0x50414841574820484D4F4E4720434C414E205349474E2048414D20),
  (0x16B8A, 0x50414841574820484D4F4E4720434C414E205349474E2056414A20),
  (0x16B8B, 0x50414841574820484D4F4E4720434C414E205349474E2046414A20),
  (0x16B8C, 0x50414841574820484D4F4E4720434C414E205349474E2059414A20),
  (0x16B8D, 0x50414841574820484D4F4E4720434C414E205349474E205453574220),
  (0x16B8E, 0x50414841574820484D4F4E4720434C414E205349474E204B574D20),
  (0x16B8F, 0x50414841574820484D4F4E4720434C414E205349474E2056574A20),
  (0x16F00, 0x4D49414F204C455454455220504120),
  (0x16F01, 0x4D49414F204C455454455220424120),
  (0x16F02, 0x4D49414F204C455454455220594920504120),
  (0x16F03, 0x4D49414F204C455454455220504C4120),
  (0x16F04, 0x4D49414F204C4554544552204D4120),
  (0x16F05, 0x4D49414F204C4554544552204D484120),
  (0x16F06, 0x4D49414F204C45545445522041524348414943204D4120),
  (0x16F07, 0x4D49414F204C455454455220464120),
  (0x16F08, 0x4D49414F204C455454455220564120),
  (0x16F09, 0x4D49414F204C45545445522056464120),
  (0x16F0A, 0x4D49414F204C455454455220544120),
  (0x16F0B, 0x4D49414F204C455454455220444120),
  (0x16F0C, 0x4D49414F204C45545445522059492054544120),
  (0x16F0D, 0x4D49414F204C455454455220594920544120),
  (0x16F0E, 0x4D49414F204C45545445522054544120),
  (0x16F0F, 0x4D49414F204C45545445522044444120),
  (0x16F10, 0x4D49414F204C4554544552204E4120),
  (0x16F11, 0x4D49414F204C4554544552204E484120),
  (0x16F12, 0x4D49414F204C4554544552205949204E4E4120),
  (0x16F13, 0x4D49414F204C45545445522041524348414943204E4120),
  (0x16F14, 0x4D49414F204C4554544552204E4E4120),
  (0x16F15, 0x4D49414F204C4554544552204E4E484120),
  (0x16F16, 0x4D49414F204C4554544552204C4120),
  (0x16F17, 0x4D49414F204C4554544552204C594120),
  (0x16F18, 0x4D49414F204C4554544552204C484120),
  (0x16F19, 0x4D49414F204C4554544552204C48594120),
  (0x16F1A, 0x4D49414F204C455454455220544C484120),
  (0x16F1B, 0x4D49414F204C455454455220444C484120),
  (0x16F1C, 0x4D49414F204C455454455220544C48594120),
  (0x16F1D, 0x4D49414F204C455454455220444C48594120),
  (0x16F1E, 0x4D49414F204C4554544552204B4120),
  (0x16F1F, 0x4D49414F204C455454455220474120),
  (0x16F20, 0x4D49414F204C4554544552205949204B4120),
  (0x16F21, 0x4D49414F204C455454455220514120),
  (0x16F22, 0x4D49414F204C45545445522051474120),
  (0x16F23, 0x4D49414F204C4554544552204E474120),
  (0x16F24, 0x4D49414F204C4554544552204E47484120),
  (0x16F25, 0x4D49414F204C45545445522041524348414943204E474120),
  (0x16F26, 0x4D49414F204C455454455220484120),
  (0x16F27, 0x4D49414F204C455454455220584120),
  (0x16F28, 0x4D49414F204C45545445522047484120),
  (0x16F29, 0x4D49414F204C4554544552204748484120),
  (0x16F2A, 0x4D49414F204C4554544552205453534120),
  (0x16F2B, 0x4D49414F204C455454455220445A5A4120),
  (0x16F2C, 0x4D49414F204C4554544552204E594120),
  (0x16F2D, 0x4D49414F204C4554544552204E59484120),
  (0x16F2E, 0x4D49414F204C4554544552205453484120),
  (0x16F2F, 0x4D49414F204C455454455220445A484120),
  (0x16F30, 0x4D49414F204C4554544552205949205453484120),
  (0x16F31, 0x4D49414F204C455454455220594920445A484120)]
def names_378 : List (Nat × Nat) := [
  (0x16F32, 0x4D49414F204C4554544552205245464F524D4544205453484120),
  (0x16F33, 0x4D49414F204C45545445522053484120),
  (0x16F34, 0x4D49414F204C45545445522053534120),
  (0x16F35, 0x4D49414F204C4554544552205A484120),
  (0x16F36, 0x4D49414F204C4554544552205A53484120),
  (0x16F37, 0x4D49414F204C45545445522054534120),
  (0x16F38, 0x4D49414F204C455454455220445A4120),
  (0x16F39, 0x4D49414F204C45545445522059492054534120),
  (0x16F3A, 0x4D49414F204C455454455220534120),
  (0x16F3B, 0x4D49414F204C4554544552205A4120),
  (0x16F3C, 0x4D49414F204C4554544552205A534120),
  (0x16F3D, 0x4D49414F204C4554544552205A5A4120),
  (0x16F3E, 0x4D49414F204C4554544552205A5A534120),
  (0x16F3F, 0x4D49414F204C45545445522041524348414943205A5A4120),
  (0x16F40, 0x4D49414F204C4554544552205A5A594120),
  (0x16F41, 0x4D49414F204C4554544552205A5A53594120),
  (0x16F42, 0x4D49414F204C455454455220574120),
  (0x16F43, 0x4D49414F204C455454455220414820),
  (0x16F44, 0x4D49414F204C45545445522048484120),
  (0x16F50, 0x4D49414F204C4554544552204E4153414C495A4154494F4E20),
  (0x16F51, 0x4D49414F205349474E2041535049524154494F4E20),
  (0x16F52, 0x4D49414F205349474E205245464F524D454420564F4943494E4720),
  (0x16F53, 0x4D49414F205349474E205245464F524D45442041535049524154494F4E20),
  (0x16F54, 0x4D49414F20564F57454C205349474E204120),
  (0x16F55, 0x4D49414F20564F57454C205349474E20414120),
  (0x16F56, 0x4D49414F20564F57454C205349474E2041484820),
  (0x16F57, 0x4D49414F20564F57454C205349474E20414E20),
  (0x16F58, 0x4D49414F20564F57454C205349474E20414E4720),
  (0x16F59, 0x4D49414F20564F57454C205349474E204F20),
  (0x16F5A, 0x4D49414F20564F57454C205349474E204F4F20),
  (0x16F5B, 0x4D49414F20564F57454C205349474E20574F20),
  (0x16F5C, 0x4D49414F20564F57454C205349474E205720),
  (0x16F5D, 0x4D49414F20564F57454C205349474E204520),
  (0x16F5E, 0x4D49414F20564F57454C205349474E20454E20),
  (0x16F5F, 0x4D49414F20564F57454C205349474E20454E4720),
  (0x16F60, 0x4D49414F20564F57454C205349474E204F455920),
  (0x16F61, 0x4D49414F20564F57454C205349474E204920),
  (0x16F62, 0x4D49414F20564F57454C205349474E20494120),
  (0x16F63, 0x4D49414F20564F57454C205349474E2049414E20),
  (0x16F64, 0x4D49414F20564F57454C205349474E2049414E4720),
  (0x16F65, 0x4D49414F20564F57454C205349474E20494F20),
  (0x16F66, 0x4D49414F20564F57454C205349474E20494520),
  (0x16F67, 0x4D49414F20564F57454C205349474E20494920),
  (0x16F68, 0x4D49414F20564F57454C205349474E20495520),
  (0x16F69, 0x4D49414F20564F57454C205349474E20494E4720),
  (0x16F6A, 0x4D49414F20564F57454C205349474E205520),
  (0x16F6B, 0x4D49414F20564F57454C205349474E20554120),
  (0x16F6C, 0x4D49414F20564F57454C205349474E2055414E20),
  (0x16F6D, 0x4D49414F20564F57454C205349474E2055414E4720),
  (0x16F6E, 0x4D49414F20564F57454C205349474E20555520),
  (0x16F6F, 0x4D49414F20564F57454C205349474E2055454920),
  (0x16F70, 0x4D49414F20564F57454C205349474E20554E4720),
  (0x16F71, 0x4D49414F20564F57454C205349474E205920),
  (0x16F72, 0x4D49414F20564F57454C205349474E20594920),
  (0x16F73, 0x4D49414F20564F57454C205349474E20414520),
  (0x16F74, 0x4D49414F20564F57454C205349474E2041454520),
  (0x16F75, 0x4D49414F20564F57454C205349474E2045525220),
  (0x16F76, 0x4D49414F20564F57454C205349474E20524F554E4445442045525220),
  (0x16F77, 0x4D49414F20564F57454C205349474E20455220),
  (0x16F78, 0x4D49414F20564F57454C205349474E20524F554E44454420455220),
  (0x16F79, 0x4D49414F20564F57454C205349474E20414920),
  (0x16F7A, 0x4D49414F20564F57454C205349474E20454920),
  (0x16F7B, 0x4D49414F20564F57454C205349474E20415520),
  (0x16F7C, 0x4D49414F20564F57454C205349474E204F5520)]
def names_379 : List (Nat × Nat) := [
  (0x16F7D, 0x4D49414F20564F57454C205349474E204E20),
  (0x16F7E, 0x4D49414F20564F57454C205349474E204E4720),
  (0x16F8F, 0x4D49414F20544F4E4520524947485420),
  (0x16F90, 0x4D49414F20544F4E4520544F5020524947485420),
  (0x16F91, 0x4D49414F20544F4E452041424F564520),
  (0x16F92, 0x4D49414F20544F4E452042454C4F5720),
  (0x16F93, 0x4D49414F204C455454455220544F4E452D3220),
  (0x16F94, 0x4D49414F204C455454455220544F4E452D3320),
  (0x16F95, 0x4D49414F204C455454455220544F4E452D3420),
  (0x16F96, 0x4D49414F204C455454455220544F4E452D3520),
  (0x16F97, 0x4D49414F204C455454455220544F4E452D3620),
  (0x16F98, 0x4D49414F204C455454455220544F4E452D3720),
  (0x16F99, 0x4D49414F204C455454455220544F4E452D3820),
  (0x16F9A, 0x4D49414F204C4554544552205245464F524D454420544F4E452D3120),
  (0x16F9B, 0x4D49414F204C4554544552205245464F524D454420544F4E452D3220),
  (0x16F9C, 0x4D49414F204C4554544552205245464F524D454420544F4E452D3420),
  (0x16F9D, 0x4D49414F204C4554544552205245464F524D454420544F4E452D3520),
  (0x16F9E, 0x4D49414F204C4554544552205245464F524D454420544F4E452D3620),
  (0x16F9F, 0x4D49414F204C4554544552205245464F524D454420544F4E452D3820),
  (0x16FE0, 0x54414E47555420495445524154494F4E204D41524B20),
  (0x16FE1, 0x4E5553485520495445524154494F4E204D41524B20),
  (0x18800, 0x54414E47555420434F4D504F4E454E542D30303120),
  (0x18801, 0x54414E47555420434F4D504F4E454E542D30303220),
  (0x18802, 0x54414E47555420434F4D504F4E454E542D30303320),
  (0x18803, 0x54414E47555420434F4D504F4E454E542D30303420),
  (0x18804, 0x54414E47555420434F4D504F4E454E542D30303520),
  (0x18805, 0x54414E47555420434F4D504F4E454E542D30303620),
  (0x18806, 0x54414E47555420434F4D504F4E454E542D30303720),
  (0x18807, 0x54414E47555420434F4D504F4E454E542D30303820),
  (0x18808, 0x54414E47555420434F4D504F4E454E542D30303920),
  (0x18809, 0x54414E47555420434F4D504F4E454E542D30313020),
  (0x1880A, 0x54414E47555420434F4D504F4E454E542D30313120),
  (0x1880B, 0x54414E47555420434F4D504F4E454E542D30313220),
  (0x1880C, 0x54414E47555420434F4D504F4E454E542D30313320),
  (0x1880D, 0x54414E47555420434F4D504F4E454E542D30313420),
  (0x1880E, 0x54414E47555420434F4D504F4E454E542D30313520),
  (0x1880F, 0x54414E47555420434F4D504F4E454E542D30313620),
  (0x18810, 0x54414E47555420434F4D504F4E454E542D30313720),
  (0x18811, 0x54414E47555420434F4D504F4E454E542D30313820),
  (0x18812, 0x54414E47555420434F4D504F4E454E542D30313920),
  (0x18813, 0x54414E47555420434F4D504F4E454E542D30323020),
  (0x18814, 0x54414E47555420434F4D504F4E454E542D30323120),
  (0x18815, 0x54414E47555420434F4D504F4E454E542D30323220),
  (0x18816, 0x54414E47555420434F4D504F4E454E542D30323320),
  (0x18817, 0x54414E47555420434F4D504F4E454E542D30323420),
  (0x18818, 0x54414E47555420434F4D504F4E454E542D30323520),
  (0x18819, 0x54414E47555420434F4D504F4E454E542D30323620),
  (0x1881A, 0x54414E47555420434F4D504F4E454E542D30323720),
  (0x1881B, 0x54414E47555420434F4D504F4E454E542D30323820),
  (0x1881C, 0x54414E47555420434F4D504F4E454E542D30323920),
  (0x1881D, 0x54414E47555420434F4D504F4E454E542D30333020),
  (0x1881E, 0x54414E47555420434F4D504F4E454E542D30333120),
  (0x1881F, 0x54414E47555420434F4D504F4E454E542D30333220),
  (0x18820, 0x54414E47555420434F4D504F4E454E542D30333320),
  (0x18821, 0x54414E47555420434F4D504F4E454E542D30333420),
  (0x18822, 0x54414E47555420434F4D504F4E454E542D30333520),
  (0x18823, 0x54414E47555420434F4D504F4E454E542D30333620),
  (0x18824, 0x54414E47555420434F4D504F4E454E542D30333720),
  (0x18825, 0x54414E47555420434F4D504F4E454E542D30333820),
  (0x18826, 0x54414E47555420434F4D504F4E454E542D30333920),
  (0x18827, 0x54414E47555420434F4D504F4E454E542D30343020),
  (0x18828, 0x54414E47555420434F4D504F4E454E542D30343120),
  (0x18829, 0x54414E47555420434F4D504F4E454E542D30343220),
  (0x1882A, 0x54414E47555420434F4D504F4E454E542D30343320)]
def names_380 : List (Nat × Nat) := [
  (0x1882B, 0x54414E47555420434F4D504F4E454E542D30343420),
  (0x1882C, 0x54414E47555420434F4D504F4E454E542D30343520),
  (0x1882D, 0x54414E47555420434F4D504F4E454E542D30343620),
  (0x1882E, 0x54414E47555420434F4D504F4E454E542D30343720),
  (0x1882F, 0x54414E47555420434F4D504F4E454E542D30343820),
  (0x18830, 0x54414E47555420434F4D504F4E454E542D30343920),
  (0x18831, 0x54414E47555420434F4D504F4E454E542D30353020),
  (0x18832, 0x54414E47555420434F4D504F4E454E542D30353120),
  (0x18833, 0x54414E47555420434F4D504F4E454E542D30353220),
  (0x18834, 0x54414E47555420434F4D504F4E454E542D30353320),
  (0x18835, 0x54414E47555420434F4D504F4E454E542D30353420),
  (0x18836, 0x54414E47555420434F4D504F4E454E542D30353520),
  (0x18837, 0x54414E47555420434F4D504F4E454E542D30353620),
  (0x18838, 0x54414E47555420434F4D504F4E454E542D30353720),
  (0x18839, 0x54414E47555420434F4D504F4E454E542D30353820),
  (0x1883A, 0x54414E47555420434F4D504F4E454E542D30353920),
  (0x1883B, 0x54414E47555420434F4D504F4E454E542D30363020),
  (0x1883C, 0x54414E47555420434F4D504F4E454E542D30363120),
  (0x1883D, 0x54414E47555420434F4D504F4E454E542D30363220),
  (0x1883E, 0x54414E47555420434F4D504F4E454E542D30363320),
  (0x1883F, 0x54414E47555420434F4D504F4E454E542D30363420),
  (0x18840, 0x54414E47555420434F4D504F4E454E542D30363520),
  (0x18841, 0x54414E47555420434F4D504F4E454E542D30363620),
  (0x18842, 0x54414E47555420434F4D504F4E454E542D30363720),
  (0x18843, 0x54414E47555420434F4D504F4E454E542D30363820),
  (0x18844, 0x54414E47555420434F4D504F4E454E542D30363920),
  (0x18845, 0x54414E47555420434F4D504F4E454E542D30373020),
  (0x18846, 0x54414E47555420434F4D504F4E454E542D30373120),
  (0x18847, 0x54414E47555420434F4D504F4E454E542D30373220),
  (0x18848, 0x54414E47555420434F4D504F4E454E542D30373320),
  (0x18849, 0x54414E47555420434F4D504F4E454E542D30373420),
  (0x1884A, 0x54414E47555420434F4D504F4E454E542D30373520),
  (0x1884B, 0x54414E47555420434F4D504F4E454E542D30373620),
  (0x1884C, 0x54414E47555420434F4D504F4E454E542D30373720),
  (0x1884D, 0x54414E47555420434F4D504F4E454E542D30373820),
  (0x1884E, 0x54414E47555420434F4D504F4E454E542D30373920),
  (0x1884F, 0x54414E47555420434F4D504F4E454E542D30383020),
  (0x18850, 0x54414E47555420434F4D504F4E454E542D30383120),
  (0x18851, 0x54414E47555420434F4D504F4E454E542D30383220),
  (0x18852, 0x54414E47555420434F4D504F4E454E542D30383320),
  (0x18853, 0x54414E47555420434F4D504F4E454E542D30383420),
  (0x18854, 0x54414E47555420434F4D504F4E454E542D30383520),
  (0x18855, 0x54414E47555420434F4D504F4E454E542D30383620),
  (0x18856, 0x54414E47555420434F4D504F4E454E542D30383720),
  (0x18857, 0x54414E47555420434F4D504F4E454E542D30383820),
  (0x18858, 0x54414E47555420434F4D504F4E454E542D30383920),
  (0x18859, 0x54414E47555420434F4D504F4E454E542D30393020),
  (0x1885A, 0x54414E47555420434F4D504F4E454E542D30393120),
  (0x1885B, 0x54414E47555420434F4D504F4E454E542D30393220),
  (0x1885C, 0x54414E47555420434F4D504F4E454E542D30393320),
  (0x1885D, 0x54414E47555420434F4D504F4E454E542D30393420),
  (0x1885E, 0x54414E47555420434F4D504F4E454E542D30393520),
  (0x1885F, 0x54414E47555420434F4D504F4E454E542D30393620),
  (0x18860, 0x54414E47555420434F4D504F4E454E542D30393720),
  (0x18861, 0x54414E47555420434F4D504F4E454E542D30393820),
  (0x18862, 0x54414E47555420434F4D504F4E454E542D30393920),
  (0x18863, 0x54414E47555420434F4D504F4E454E542D31303020),
  (0x18864, 0x54414E47555420434F4D504F4E454E542D31303120),
  (0x18865, 0x54414E47555420434F4D504F4E454E542D31303220),
  (0x18866, 0x54414E47555420434F4D504F4E454E542D31303320),
  (0x18867, 0x54414E47555420434F4D504F4E454E542D31303420),
  (0x18868, 0x54414E47555420434F4D504F4E454E542D31303520),
  (0x18869, 0x54414E47555420434F4D504F4E454E542D31303620),
  (0x1886A, 0x54414E47555420434F4D504F4E454E542D31303720)]
def names_381 : List (Nat × Nat) := [
  (0x1886B, 0x54414E47555420434F4D504F4E454E542D31303820),
  (0x1886C, 0x54414E47555420434F4D504F4E454E542D31303920),
  (0x1886D, 0x54414E47555420434F4D504F4E454E542D31313020),
  (0x1886E, 0x54414E47555420434F4D504F4E454E542D31313120),
  (0x1886F, 0x54414E47555420434F4D504F4E454E542D31313220),
  (0x18870, 0x54414E47555420434F4D504F4E454E542D31313320),
  (0x18871, 0x54414E47555420434F4D504F4E454E542D31313420),
  (0x18872, 0x54414E47555420434F4D504F4E454E542D31313520),
  (0x18873, 0x54414E47555420434F4D504F4E454E542D31313620),
  (0x18874, 0x54414E47555420434F4D504F4E454E542D31313720),
  (0x18875, 0x54414E47555420434F4D504F4E454E542D31313820),
  (0x18876, 0x54414E47555420434F4D504F4E454E542D31313920),
  (0x18877, 0x54414E47555420434F4D504F4E454E542D31323020),
  (0x18878, 0x54414E47555420434F4D504F4E454E542D31323120),
  (0x18879, 0x54414E47555420434F4D504F4E454E542D31323220),
  (0x1887A, 0x54414E47555420434F4D504F4E454E542D31323320),
  (0x1887B, 0x54414E47555420434F4D504F4E454E542D31323420),
  (0x1887C, 0x54414E47555420434F4D504F4E454E542D31323520),
  (0x1887D, 0x54414E47555420434F4D504F4E454E542D31323620),
  (0x1887E, 0x54414E47555420434F4D504F4E454E542D31323720),
  (0x1887F, 0x54414E47555420434F4D504F4E454E542D31323820),
  (0x18880, 0x54414E47555420434F4D504F4E454E542D31323920),
  (0x18881, 0x54414E47555420434F4D504F4E454E542D31333020),
  (0x18882, 0x54414E47555420434F4D504F4E454E542D31333120),
  (0x18883, 0x54414E47555420434F4D504F4E454E542D31333220),
  (0x18884, 0x54414E47555420434F4D504F4E454E542D31333320),
  (0x18885, 0x54414E47555420434F4D504F4E454E542D31333420),
  (0x18886, 0x54414E47555420434F4D504F4E454E542D31333520),
  (0x18887, 0x54414E47555420434F4D504F4E454E542D31333620),
  (0x18888, 0x54414E47555420434F4D504F4E454E542D31333720),
  (0x18889, 0x54414E47555420434F4D504F4E454E542D31333820),
  (0x1888A, 0x54414E47555420434F4D504F4E454E542D31333920),
  (0x1888B, 0x54414E47555420434F4D504F4E454E542D31343020),
  (0x1888C, 0x54414E47555420434F4D504F4E454E542D31343120),
  (0x1888D, 0x54414E47555420434F4D504F4E454E542D31343220),
  (0x1888E, 0x54414E47555420434F4D504F4E454E542D31343320),
  (0x1888F, 0x54414E47555420434F4D504F4E454E542D31343420),
  (0x18890, 0x54414E47555420434F4D504F4E454E542D31343520),
  (0x18891, 0x54414E47555420434F4D504F4E454E542D31343620),
  (0x18892, 0x54414E47555420434F4D504F4E454E542D31343720),
  (0x18893, 0x54414E47555420434F4D504F4E454E542D31343820),
  (0x18894, 0x54414E47555420434F4D504F4E454E542D31343920),
  (0x18895, 0x54414E47555420434F4D504F4E454E542D31353020),
  (0x18896, 0x54414E47555420434F4D504F4E454E542D31353120),
  (0x18897, 0x54414E47555420434F4D504F4E454E542D31353220),
  (0x18898, 0x54414E47555420434F4D504F4E454E542D31353320),
  (0x18899, 0x54414E47555420434F4D504F4E454E542D31353420),
  (0x1889A, 0x54414E47555420434F4D504F4E454E542D31353520),
  (0x1889B, 0x54414E47555420434F4D504F4E454E542D31353620),
  (0x1889C, 0x54414E47555420434F4D504F4E454E542D31353720),
  (0x1889D, 0x54414E47555420434F4D504F4E454E542D31353820),
  (0x1889E, 0x54414E47555420434F4D504F4E454E542D31353920),
  (0x1889F, 0x54414E47555420434F4D504F4E454E542D31363020),
  (0x188A0, 0x54414E47555420434F4D504F4E454E542D31363120),
  (0x188A1, 0x54414E47555420434F4D504F4E454E542D31363220),
  (0x188A2, 0x54414E47555420434F4D504F4E454E542D31363320),
  (0x188A3, 0x54414E47555420434F4D504F4E454E542D31363420),
  (0x188A4, 0x54414E47555420434F4D504F4E454E542D31363520),
  (0x188A5, 0x54414E47555420434F4D504F4E454E542D31363620),
  (0x188A6, 0x54414E47555420434F4D504F4E454E542D31363720),
  (0x188A7, 0x54414E47555420434F4D504F4E454E542D31363820),
  (0x188A8, 0x54414E47555420434F4D504F4E454E542D31363920),
  (0x188A9, 0x54414E47555420434F4D504F4E454E542D31373020),
  (0x188AA, 0x54414E47555420434F4D504F4E454E542D31373120)]
def names_382 : List (Nat × Nat) := [
  (0x188AB, 0x54414E47555420434F4D504F4E454E542D31373220),
  (0x188AC, 0x54414E47555420434F4D504F4E454E542D31373320),
  (0x188AD, 0x54414E47555420434F4D504F4E454E542D31373420),
  (0x188AE, 0x54414E47555420434F4D504F4E454E542D31373520),
  (0x188AF, 0x54414E47555420434F4D504F4E454E542D31373620),
  (0x188B0, 0x54414E47555420434F4D504F4E454E542D31373720),
  (0x188B1, 0x54414E47555420434F4D504F4E454E542D31373820),
  (0x188B2, 0x54414E47555420434F4D504F4E454E542D31373920),
  (0x188B3, 0x54414E47555420434F4D504F4E454E542D31383020),
  (0x188B4, 0x54414E47555420434F4D504F4E454E542D31383120),
  (0x188B5, 0x54414E47555420434F4D504F4E454E542D31383220),
  (0x188B6, 0x54414E47555420434F4D504F4E454E542D31383320),
  (0x188B7, 0x54414E47555420434F4D504F4E454E542D31383420),
  (0x188B8, 0x54414E47555420434F4D504F4E454E542D31383520),
  (0x188B9, 0x54414E47555420434F4D504F4E454E542D31383620),
  (0x188BA, 0x54414E47555420434F4D504F4E454E542D31383720),
  (0x188BB, 0x54414E47555420434F4D504F4E454E542D31383820),
  (0x188BC, 0x54414E47555420434F4D504F4E454E542D31383920),
  (0x188BD, 0x54414E47555420434F4D504F4E454E542D31393020),
  (0x188BE, 0x54414E47555420434F4D504F4E454E542D31393120),
  (0x188BF, 0x54414E47555420434F4D504F4E454E542D31393220),
  (0x188C0, 0x54414E47555420434F4D504F4E454E542D31393320),
  (0x188C1, 0x54414E47555420434F4D504F4E454E542D31393420),
  (0x188C2, 0x54414E47555420434F4D504F4E454E542D31393520),
  (0x188C3, 0x54414E47555420434F4D504F4E454E542D31393620),
  (0x188C4, 0x54414E47555420434F4D504F4E454E542D31393720),
  (0x188C5, 0x54414E47555420434F4D504F4E454E542D31393820),
  (0x188C6, 0x54414E47555420434F4D504F4E454E542D31393920),
  (0x188C7, 0x54414E47555420434F4D504F4E454E542D32303020),
  (0x188C8, 0x54414E47555420434F4D504F4E454E542D32303120),
  (0x188C9, 0x54414E47555420434F4D504F4E454E542D32303220),
  (0x188CA, 0x54414E47555420434F4D504F4E454E542D32303320),
  (0x188CB, 0x54414E47555420434F4D504F4E454E542D32303420),
  (0x188CC, 0x54414E47555420434F4D504F4E454E542D32303520),
  (0x188CD, 0x54414E47555420434F4D504F4E454E542D32303620),
  (0x188CE, 0x54414E47555420434F4D504F4E454E542D32303720),
  (0x188CF, 0x54414E47555420434F4D504F4E454E542D32303820),
  (0x188D0, 0x54414E47555420434F4D504F4E454E542D32303920),
  (0x188D1, 0x54414E47555420434F4D504F4E454E542D32313020),
  (0x188D2, 0x54414E47555420434F4D504F4E454E542D32313120),
  (0x188D3, 0x54414E47555420434F4D504F4E454E542D32313220),
  (0x188D4, 0x54414E47555420434F4D504F4E454E542D32313320),
  (0x188D5, 0x54414E47555420434F4D504F4E454E542D32313420),
  (0x188D6, 0x54414E47555420434F4D504F4E454E542D32313520),
  (0x188D7, 0x54414E47555420434F4D504F4E454E542D32313620),
  (0x188D8, 0x54414E47555420434F4D504F4E454E542D32313720),
  (0x188D9, 0x54414E47555420434F4D504F4E454E542D32313820),
  (0x188DA, 0x54414E47555420434F4D504F4E454E542D32313920),
  (0x188DB, 0x54414E47555420434F4D504F4E454E542D32323020),
  (0x188DC, 0x54414E47555420434F4D504F4E454E542D32323120),
  (0x188DD, 0x54414E47555420434F4D504F4E454E542D32323220),
  (0x188DE, 0x54414E47555420434F4D504F4E454E542D32323320),
  (0x188DF, 0x54414E47555420434F4D504F4E454E542D32323420),
  (0x188E0, 0x54414E47555420434F4D504F4E454E542D32323520),
  (0x188E1, 0x54414E47555420434F4D504F4E454E542D32323620),
  (0x188E2, 0x54414E47555420434F4D504F4E454E542D32323720),
  (0x188E3, 0x54414E47555420434F4D504F4E454E542D32323820),
  (0x188E4, 0x54414E47555420434F4D504F4E454E542D32323920),
  (0x188E5, 0x54414E47555420434F4D504F4E454E542D32333020),
  (0x188E6, 0x54414E47555420434F4D504F4E454E542D32333120),
  (0x188E7, 0x54414E47555420434F4D504F4E454E542D32333220),
  (0x188E8, 0x54414E47555420434F4D504F4E454E542D32333320),
  (0x188E9, 0x54414E47555420434F4D504F4E454E542D32333420),
  (0x188EA, 0x54414E47555420434F4D504F4E454E542D32333520)]
def names_383 : List (Nat × Nat) := [
  (0x188EB, 0x54414E47555420434F4D504F4E454E542D32333620),
  (0x188EC, 0x54414E47555420434F4D504F4E454E542D32333720),
  (0x188ED, 0x54414E47555420434F4D504F4E454E542D32333820),
  (0x188EE, 0x54414E47555420434F4D504F4E454E542D32333920),
  (0x188EF, 0x54414E47555420434F4D504F4E454E542D32343020),
  (0x188F0, 0x54414E47555420434F4D504F4E454E542D32343120),
  (0x188F1, 0x54414E47555420434F4D504F4E454E542D32343220),
  (0x188F2, 0x54414E47555420434F4D504F4E454E542D32343320),
  (0x188F3, 0x54414E47555420434F4D504F4E454E542D32343420),
  (0x188F4, 0x54414E47555420434F4D504F4E454E542D32343520),
  (0x188F5, 0x54414E47555420434F4D504F4E454E542D32343620),
  (0x188F6, 0x54414E47555420434F4D504F4E454E542D32343720),
  (0x188F7, 0x54414E47555420434F4D504F4E454E542D32343820),
  (0x188F8, 0x54414E47555420434F4D504F4E454E542D32343920),
  (0x188F9, 0x54414E47555420434F4D504F4E454E542D32353020),
  (0x188FA, 0x54414E47555420434F4D504F4E454E542D32353120),
  (0x188FB, 0x54414E47555420434F4D504F4E454E542D32353220),
  (0x188FC, 0x54414E47555420434F4D504F4E454E542D32353320),
  (0x188FD, 0x54414E47555420434F4D504F4E454E542D32353420),
  (0x188FE, 0x54414E47555420434F4D504F4E454E542D32353520),
  (0x188FF, 0x54414E47555420434F4D504F4E454E542D32353620),
  (0x18900, 0x54414E47555420434F4D504F4E454E542D32353720),
  (0x18901, 0x54414E47555420434F4D504F4E454E542D32353820),
  (0x18902, 0x54414E47555420434F4D504F4E454E542D32353920),
  (0x18903, 0x54414E47555420434F4D504F4E454E542D32363020),
  (0x18904, 0x54414E47555420434F4D504F4E454E542D32363120),
  (0x18905, 0x54414E47555420434F4D504F4E454E542D32363220),
  (0x18906, 0x54414E47555420434F4D504F4E454E542D32363320),
  (0x18907, 0x54414E47555420434F4D504F4E454E542D32363420),
  (0x18908, 0x54414E47555420434F4D504F4E454E542D32363520),
  (0x18909, 0x54414E47555420434F4D504F4E454E542D32363620),
  (0x1890A, 0x54414E47555420434F4D504F4E454E542D32363720),
  (0x1890B, 0x54414E47555420434F4D504F4E454E542D32363820),
  (0x1890C, 0x54414E47555420434F4D504F4E454E542D32363920),
  (0x1890D, 0x54414E47555420434F4D504F4E454E542D32373020),
  (0x1890E, 0x54414E47555420434F4D504F4E454E542D32373120),
  (0x1890F, 0x54414E47555420434F4D504F4E454E542D32373220),
  (0x18910, 0x54414E47555420434F4D504F4E454E542D32373320),
  (0x18911, 0x54414E47555420434F4D504F4E454E542D32373420),
  (0x18912, 0x54414E47555420434F4D504F4E454E542D32373520),
  (0x18913, 0x54414E47555420434F4D504F4E454E542D32373620),
  (0x18914, 0x54414E47555420434F4D504F4E454E542D32373720),
  (0x18915, 0x54414E47555420434F4D504F4E454E542D32373820),
  (0x18916, 0x54414E47555420434F4D504F4E454E542D32373920),
  (0x18917, 0x54414E47555420434F4D504F4E454E542D32383020),
  (0x18918, 0x54414E47555420434F4D504F4E454E542D32383120),
  (0x18919, 0x54414E47555420434F4D504F4E454E542D32383220),
  (0x1891A, 0x54414E47555420434F4D504F4E454E542D32383320),
  (0x1891B, 0x54414E47555420434F4D504F4E454E542D32383420),
  (0x1891C, 0x54414E47555420434F4D504F4E454E542D32383520),
  (0x1891D, 0x54414E47555420434F4D504F4E454E542D32383620),
  (0x1891E, 0x54414E47555420434F4D504F4E454E542D32383720),
  (0x1891F, 0x54414E47555420434F4D504F4E454E542D32383820),
  (0x18920, 0x54414E47555420434F4D504F4E454E542D32383920),
  (0x18921, 0x54414E47555420434F4D504F4E454E542D32393020),
  (0x18922, 0x54414E47555420434F4D504F4E454E542D32393120),
  (0x18923, 0x54414E47555420434F4D504F4E454E542D32393220),
  (0x18924, 0x54414E47555420434F4D504F4E454E542D32393320),
  (0x18925, 0x54414E47555420434F4D504F4E454E542D32393420),
  (0x18926, 0x54414E47555420434F4D504F4E454E542D32393520),
  (0x18927, 0x54414E47555420434F4D504F4E454E542D32393620),
  (0x18928, 0x54414E47555420434F4D504F4E454E542D32393720),
  (0x18929, 0x54414E47555420434F4D504F4E454E542D32393820),
  (0x1892A, 0x54414E47555420434F4D504F4E454E542D32393920)]
def names_384 : List (Nat × Nat) := [
  (0x1892B, 0x54414E47555420434F4D504F4E454E542D33303020),
  (0x1892C, 0x54414E47555420434F4D504F4E454E542D33303120),
  (0x1892D, 0x54414E47555420434F4D504F4E454E542D33303220),
  (0x1892E, 0x54414E47555420434F4D504F4E454E542D33303320),
  (0x1892F, 0x54414E47555420434F4D504F4E454E542D33303420),
  (0x18930, 0x54414E47555420434F4D504F4E454E542D33303520),
  (0x18931, 0x54414E47555420434F4D504F4E454E542D33303620),
  (0x18932, 0x54414E47555420434F4D504F4E454E542D33303720),
  (0x18933, 0x54414E47555420434F4D504F4E454E542D33303820),
  (0x18934, 0x54414E47555420434F4D504F4E454E542D33303920),
  (0x18935, 0x54414E47555420434F4D504F4E454E542D33313020),
  (0x18936, 0x54414E47555420434F4D504F4E454E542D33313120),
  (0x18937, 0x54414E47555420434F4D504F4E454E542D33313220),
  (0x18938, 0x54414E47555420434F4D504F4E454E542D33313320),
  (0x18939, 0x54414E47555420434F4D504F4E454E542D33313420),
  (0x1893A, 0x54414E47555420434F4D504F4E454E542D33313520),
  (0x1893B, 0x54414E47555420434F4D504F4E454E542D33313620),
  (0x1893C, 0x54414E47555420434F4D504F4E454E542D33313720),
  (0x1893D, 0x54414E47555420434F4D504F4E454E542D33313820),
  (0x1893E, 0x54414E47555420434F4D504F4E454E542D33313920),
  (0x1893F, 0x54414E47555420434F4D504F4E454E542D33323020),
  (0x18940, 0x54414E47555420434F4D504F4E454E542D33323120),
  (0x18941, 0x54414E47555420434F4D504F4E454E542D33323220),
  (0x18942, 0x54414E47555420434F4D504F4E454E542D33323320),
  (0x18943, 0x54414E47555420434F4D504F4E454E542D33323420),
  (0x18944, 0x54414E47555420434F4D504F4E454E542D33323520),
  (0x18945, 0x54414E47555420434F4D504F4E454E542D33323620),
  (0x18946, 0x54414E47555420434F4D504F4E454E542D33323720),
  (0x18947, 0x54414E47555420434F4D504F4E454E542D33323820),
  (0x18948, 0x54414E47555420434F4D504F4E454E542D33323920),
  (0x18949, 0x54414E47555420434F4D504F4E454E542D33333020),
  (0x1894A, 0x54414E47555420434F4D504F4E454E542D33333120),
  (0x1894B, 0x54414E47555420434F4D504F4E454E542D33333220),
  (0x1894C, 0x54414E47555420434F4D504F4E454E542D33333320),
  (0x1894D, 0x54414E47555420434F4D504F4E454E542D33333420),
  (0x1894E, 0x54414E47555420434F4D504F4E454E542D33333520),
  (0x1894F, 0x54414E47555420434F4D504F4E454E542D33333620),
  (0x18950, 0x54414E47555420434F4D504F4E454E542D33333720),
  (0x18951, 0x54414E47555420434F4D504F4E454E542D33333820),
  (0x18952, 0x54414E47555420434F4D504F4E454E542D33333920),
  (0x18953, 0x54414E47555420434F4D504F4E454E542D33343020),
  (0x18954, 0x54414E47555420434F4D504F4E454E542D33343120),
  (0x18955, 0x54414E47555420434F4D504F4E454E542D33343220),
  (0x18956, 0x54414E47555420434F4D504F4E454E542D33343320),
  (0x18957, 0x54414E47555420434F4D504F4E454E542D33343420),
  (0x18958, 0x54414E47555420434F4D504F4E454E542D33343520),
  (0x18959, 0x54414E47555420434F4D504F4E454E542D33343620),
  (0x1895A, 0x54414E47555420434F4D504F4E454E542D33343720),
  (0x1895B, 0x54414E47555420434F4D504F4E454E542D33343820),
  (0x1895C, 0x54414E47555420434F4D504F4E454E542D33343920),
  (0x1895D, 0x54414E47555420434F4D504F4E454E542D33353020),
  (0x1895E, 0x54414E47555420434F4D504F4E454E542D33353120),
  (0x1895F, 0x54414E47555420434F4D504F4E454E542D33353220),
  (0x18960, 0x54414E47555420434F4D504F4E454E542D33353320),
  (0x18961, 0x54414E47555420434F4D504F4E454E542D33353420),
  (0x18962, 0x54414E47555420434F4D504F4E454E542D33353520),
  (0x18963, 0x54414E47555420434F4D504F4E454E542D33353620),
  (0x18964, 0x54414E47555420434F4D504F4E454E542D33353720),
  (0x18965, 0x54414E47555420434F4D504F4E454E542D33353820),
  (0x18966, 0x54414E47555420434F4D504F4E454E542D33353920),
  (0x18967, 0x54414E47555420434F4D504F4E454E542D33363020),
  (0x18968, 0x54414E47555420434F4D504F4E454E542D33363120),
  (0x18969, 0x54414E47555420434F4D504F4E454E542D33363220),
  (0x1896A, 0x54414E47555420434F4D504F4E454E542D33363320)]
def names_385 : List (Nat × Nat) := [
  (0x1896B, 0x54414E47555420434F4D504F4E454E542D33363420),
  (0x1896C, 0x54414E47555420434F4D504F4E454E542D33363520),
  (0x1896D, 0x54414E47555420434F4D504F4E454E542D33363620),
  (0x1896E, 0x54414E47555420434F4D504F4E454E542D33363720),
  (0x1896F, 0x54414E47555420434F4D504F4E454E542D33363820),
  (0x18970, 0x54414E47555420434F4D504F4E454E542D33363920),
  (0x18971, 0x54414E47555420434F4D504F4E454E542D33373020),
  (0x18972, 0x54414E47555420434F4D504F4E454E542D33373120),
  (0x18973, 0x54414E47555420434F4D504F4E454E542D33373220),
  (0x18974, 0x54414E47555420434F4D504F4E454E542D33373320),
  (0x18975, 0x54414E47555420434F4D504F4E454E542D33373420),
  (0x18976, 0x54414E47555420434F4D504F4E454E542D33373520),
  (0x18977, 0x54414E47555420434F4D504F4E454E542D33373620),
  (0x18978, 0x54414E47555420434F4D504F4E454E542D33373720),
  (0x18979, 0x54414E47555420434F4D504F4E454E542D33373820),
  (0x1897A, 0x54414E47555420434F4D504F4E454E542D33373920),
  (0x1897B, 0x54414E47555420434F4D504F4E454E542D33383020),
  (0x1897C, 0x54414E47555420434F4D504F4E454E542D33383120),
  (0x1897D, 0x54414E47555420434F4D504F4E454E542D33383220),
  (0x1897E, 0x54414E47555420434F4D504F4E454E542D33383320),
  (0x1897F, 0x54414E47555420434F4D504F4E454E542D33383420),
  (0x18980, 0x54414E47555420434F4D504F4E454E542D33383520),
  (0x18981, 0x54414E47555420434F4D504F4E454E542D33383620),
  (0x18982, 0x54414E47555420434F4D504F4E454E542D33383720),
  (0x18983, 0x54414E47555420434F4D504F4E454E542D33383820),
  (0x18984, 0x54414E47555420434F4D504F4E454E542D33383920),
  (0x18985, 0x54414E47555420434F4D504F4E454E542D33393020),
  (0x18986, 0x54414E47555420434F4D504F4E454E542D33393120),
  (0x18987, 0x54414E47555420434F4D504F4E454E542D33393220),
  (0x18988, 0x54414E47555420434F4D504F4E454E542D33393320),
  (0x18989, 0x54414E47555420434F4D504F4E454E542D33393420),
  (0x1898A, 0x54414E47555420434F4D504F4E454E542D33393520),
  (0x1898B, 0x54414E47555420434F4D504F4E454E542D33393620),
  (0x1898C, 0x54414E47555420434F4D504F4E454E542D33393720),
  (0x1898D, 0x54414E47555420434F4D504F4E454E542D33393820),
  (0x1898E, 0x54414E47555420434F4D504F4E454E542D33393920),
  (0x1898F, 0x54414E47555420434F4D504F4E454E542D34303020),
  (0x18990, 0x54414E47555420434F4D504F4E454E542D34303120),
  (0x18991, 0x54414E47555420434F4D504F4E454E542D34303220),
  (0x18992, 0x54414E47555420434F4D504F4E454E542D34303320),
  (0x18993, 0x54414E47555420434F4D504F4E454E542D34303420),
  (0x18994, 0x54414E47555420434F4D504F4E454E542D34303520),
  (0x18995, 0x54414E47555420434F4D504F4E454E542D34303620),
  (0x18996, 0x54414E47555420434F4D504F4E454E542D34303720),
  (0x18997, 0x54414E47555420434F4D504F4E454E542D34303820),
  (0x18998, 0x54414E47555420434F4D504F4E454E542D34303920),
  (0x18999, 0x54414E47555420434F4D504F4E454E542D34313020),
  (0x1899A, 0x54414E47555420434F4D504F4E454E542D34313120),
  (0x1899B, 0x54414E47555420434F4D504F4E454E542D34313220),
  (0x1899C, 0x54414E47555420434F4D504F4E454E542D34313320),
  (0x1899D, 0x54414E47555420434F4D504F4E454E542D34313420),
  (0x1899E, 0x54414E47555420434F4D504F4E454E542D34313520),
  (0x1899F, 0x54414E47555420434F4D504F4E454E542D34313620),
  (0x189A0, 0x54414E47555420434F4D504F4E454E542D34313720),
  (0x189A1, 0x54414E47555420434F4D504F4E454E542D34313820),
  (0x189A2, 0x54414E47555420434F4D504F4E454E542D34313920),
  (0x189A3, 0x54414E47555420434F4D504F4E454E542D34323020),
  (0x189A4, 0x54414E47555420434F4D504F4E454E542D34323120),
  (0x189A5, 0x54414E47555420434F4D504F4E454E542D34323220),
  (0x189A6, 0x54414E47555420434F4D504F4E454E542D34323320),
  (0x189A7, 0x54414E47555420434F4D504F4E454E542D34323420),
  (0x189A8, 0x54414E47555420434F4D504F4E454E542D34323520),
  (0x189A9, 0x54414E47555420434F4D504F4E454E542D34323620),
  (0x189AA, 0x54414E47555420434F4D504F4E454E542D34323720)]
def names_386 : List (Nat × Nat) := [
  (0x189AB, 0x54414E47555420434F4D504F4E454E542D34323820),
  (0x189AC, 0x54414E47555420434F4D504F4E454E542D34323920),
  (0x189AD, 0x54414E47555420434F4D504F4E454E542D34333020),
  (0x189AE, 0x54414E47555420434F4D504F4E454E542D34333120),
  (0x189AF, 0x54414E47555420434F4D504F4E454E542D34333220),
  (0x189B0, 0x54414E47555420434F4D504F4E454E542D34333320),
  (0x189B1, 0x54414E47555420434F4D504F4E454E542D34333420),
  (0x189B2, 0x54414E47555420434F4D504F4E454E542D34333520),
  (0x189B3, 0x54414E47555420434F4D504F4E454E542D34333620),
  (0x189B4, 0x54414E47555420434F4D504F4E454E542D34333720),
  (0x189B5, 0x54414E47555420434F4D504F4E454E542D34333820),
  (0x189B6, 0x54414E47555420434F4D504F4E454E542D34333920),
  (0x189B7, 0x54414E47555420434F4D504F4E454E542D34343020),
  (0x189B8, 0x54414E47555420434F4D504F4E454E542D34343120),
  (0x189B9, 0x54414E47555420434F4D504F4E454E542D34343220),
  (0x189BA, 0x54414E47555420434F4D504F4E454E542D34343320),
  (0x189BB, 0x54414E47555420434F4D504F4E454E542D34343420),
  (0x189BC, 0x54414E47555420434F4D504F4E454E542D34343520),
  (0x189BD, 0x54414E47555420434F4D504F4E454E542D34343620),
  (0x189BE, 0x54414E47555420434F4D504F4E454E542D34343720),
  (0x189BF, 0x54414E47555420434F4D504F4E454E542D34343820),
  (0x189C0, 0x54414E47555420434F4D504F4E454E542D34343920),
  (0x189C1, 0x54414E47555420434F4D504F4E454E542D34353020),
  (0x189C2, 0x54414E47555420434F4D504F4E454E542D34353120),
  (0x189C3, 0x54414E47555420434F4D504F4E454E542D34353220),
  (0x189C4, 0x54414E47555420434F4D504F4E454E542D34353320),
  (0x189C5, 0x54414E47555420434F4D504F4E454E542D34353420),
  (0x189C6, 0x54414E47555420434F4D504F4E454E542D34353520),
  (0x189C7, 0x54414E47555420434F4D504F4E454E542D34353620),
  (0x189C8, 0x54414E47555420434F4D504F4E454E542D34353720),
  (0x189C9, 0x54414E47555420434F4D504F4E454E542D34353820),
  (0x189CA, 0x54414E47555420434F4D504F4E454E542D34353920),
  (0x189CB, 0x54414E47555420434F4D504F4E454E542D34363020),
  (0x189CC, 0x54414E47555420434F4D504F4E454E542D34363120),
  (0x189CD, 0x54414E47555420434F4D504F4E454E542D34363220),
  (0x189CE, 0x54414E47555420434F4D504F4E454E542D34363320),
  (0x189CF, 0x54414E47555420434F4D504F4E454E542D34363420),
  (0x189D0, 0x54414E47555420434F4D504F4E454E542D34363520),
  (0x189D1, 0x54414E47555420434F4D504F4E454E542D34363620),
  (0x189D2, 0x54414E47555420434F4D504F4E454E542D34363720),
  (0x189D3, 0x54414E47555420434F4D504F4E454E542D34363820),
  (0x189D4, 0x54414E47555420434F4D504F4E454E542D34363920),
  (0x189D5, 0x54414E47555420434F4D504F4E454E542D34373020),
  (0x189D6, 0x54414E47555420434F4D504F4E454E542D34373120),
  (0x189D7, 0x54414E47555420434F4D504F4E454E542D34373220),
  (0x189D8, 0x54414E47555420434F4D504F4E454E542D34373320),
  (0x189D9, 0x54414E47555420434F4D504F4E454E542D34373420),
  (0x189DA, 0x54414E47555420434F4D504F4E454E542D34373520),
  (0x189DB, 0x54414E47555420434F4D504F4E454E542D34373620),
  (0x189DC, 0x54414E47555420434F4D504F4E454E542D34373720),
  (0x189DD, 0x54414E47555420434F4D504F4E454E542D34373820),
  (0x189DE, 0x54414E47555420434F4D504F4E454E542D34373920),
  (0x189DF, 0x54414E47555420434F4D504F4E454E542D34383020),
  (0x189E0, 0x54414E47555420434F4D504F4E454E542D34383120),
  (0x189E1, 0x54414E47555420434F4D504F4E454E542D34383220),
  (0x189E2, 0x54414E47555420434F4D504F4E454E542D34383320),
  (0x189E3, 0x54414E47555420434F4D504F4E454E542D34383420),
  (0x189E4, 0x54414E47555420434F4D504F4E454E542D34383520),
  (0x189E5, 0x54414E47555420434F4D504F4E454E542D34383620),
  (0x189E6, 0x54414E47555420434F4D504F4E454E542D34383720),
  (0x189E7, 0x54414E47555420434F4D504F4E454E542D34383820),
  (0x189E8, 0x54414E47555420434F4D504F4E454E542D34383920),
  (0x189E9, 0x54414E47555420434F4D504F4E454E542D34393020),
  (0x189EA, 0x54414E47555420434F4D504F4E454E542D34393120)]
def names_387 : List (Nat × Nat) := [
  (0x189EB, 0x54414E47555420434F4D504F4E454E542D34393220),
  (0x189EC, 0x54414E47555420434F4D504F4E454E542D34393320),
  (0x189ED, 0x54414E47555420434F4D504F4E454E542D34393420),
  (0x189EE, 0x54414E47555420434F4D504F4E454E542D34393520),
  (0x189EF, 0x54414E47555420434F4D504F4E454E542D34393620),
  (0x189F0, 0x54414E47555420434F4D504F4E454E542D34393720),
  (0x189F1, 0x54414E47555420434F4D504F4E454E542D34393820),
  (0x189F2, 0x54414E47555420434F4D504F4E454E542D34393920),
  (0x189F3, 0x54414E47555420434F4D504F4E454E542D35303020),
  (0x189F4, 0x54414E47555420434F4D504F4E454E542D35303120),
  (0x189F5, 0x54414E47555420434F4D504F4E454E542D35303220),
  (0x189F6, 0x54414E47555420434F4D504F4E454E542D35303320),
  (0x189F7, 0x54414E47555420434F4D504F4E454E542D35303420),
  (0x189F8, 0x54414E47555420434F4D504F4E454E542D35303520),
  (0x189F9, 0x54414E47555420434F4D504F4E454E542D35303620),
  (0x189FA, 0x54414E47555420434F4D504F4E454E542D35303720),
  (0x189FB, 0x54414E47555420434F4D504F4E454E542D35303820),
  (0x189FC, 0x54414E47555420434F4D504F4E454E542D35303920),
  (0x189FD, 0x54414E47555420434F4D504F4E454E542D35313020),
  (0x189FE, 0x54414E47555420434F4D504F4E454E542D35313120),
  (0x189FF, 0x54414E47555420434F4D504F4E454E542D35313220),
  (0x18A00, 0x54414E47555420434F4D504F4E454E542D35313320),
  (0x18A01, 0x54414E47555420434F4D504F4E454E542D35313420),
  (0x18A02, 0x54414E47555420434F4D504F4E454E542D35313520),
  (0x18A03, 0x54414E47555420434F4D504F4E454E542D35313620),
  (0x18A04, 0x54414E47555420434F4D504F4E454E542D35313720),
  (0x18A05, 0x54414E47555420434F4D504F4E454E542D35313820),
  (0x18A06, 0x54414E47555420434F4D504F4E454E542D35313920),
  (0x18A07, 0x54414E47555420434F4D504F4E454E542D35323020),
  (0x18A08, 0x54414E47555420434F4D504F4E454E542D35323120),
  (0x18A09, 0x54414E47555420434F4D504F4E454E542D35323220),
  (0x18A0A, 0x54414E47555420434F4D504F4E454E542D35323320),
  (0x18A0B, 0x54414E47555420434F4D504F4E454E542D35323420),
  (0x18A0C, 0x54414E47555420434F4D504F4E454E542D35323520),
  (0x18A0D, 0x54414E47555420434F4D504F4E454E542D35323620),
  (0x18A0E, 0x54414E47555420434F4D504F4E454E542D35323720),
  (0x18A0F, 0x54414E47555420434F4D504F4E454E542D35323820),
  (0x18A10, 0x54414E47555420434F4D504F4E454E542D35323920),
  (0x18A11, 0x54414E47555420434F4D504F4E454E542D35333020),
  (0x18A12, 0x54414E47555420434F4D504F4E454E542D35333120),
  (0x18A13, 0x54414E47555420434F4D504F4E454E542D35333220),
  (0x18A14, 0x54414E47555420434F4D504F4E454E542D35333320),
  (0x18A15, 0x54414E47555420434F4D504F4E454E542D35333420),
  (0x18A16, 0x54414E47555420434F4D504F4E454E542D35333520),
  (0x18A17, 0x54414E47555420434F4D504F4E454E542D35333620),
  (0x18A18, 0x54414E47555420434F4D504F4E454E542D35333720),
  (0x18A19, 0x54414E47555420434F4D504F4E454E542D35333820),
  (0x18A1A, 0x54414E47555420434F4D504F4E454E542D35333920),
  (0x18A1B, 0x54414E47555420434F4D504F4E454E542D35343020),
  (0x18A1C, 0x54414E47555420434F4D504F4E454E542D35343120),
  (0x18A1D, 0x54414E47555420434F4D504F4E454E542D35343220),
  (0x18A1E, 0x54414E47555420434F4D504F4E454E542D35343320),
  (0x18A1F, 0x54414E47555420434F4D504F4E454E542D35343420),
  (0x18A20, 0x54414E47555420434F4D504F4E454E542D35343520),
  (0x18A21, 0x54414E47555420434F4D504F4E454E542D35343620),
  (0x18A22, 0x54414E47555420434F4D504F4E454E542D35343720),
  (0x18A23, 0x54414E47555420434F4D504F4E454E542D35343820),
  (0x18A24, 0x54414E47555420434F4D504F4E454E542D35343920),
  (0x18A25, 0x54414E47555420434F4D504F4E454E542D35353020),
  (0x18A26, 0x54414E47555420434F4D504F4E454E542D35353120),
  (0x18A27, 0x54414E47555420434F4D504F4E454E542D35353220),
  (0x18A28, 0x54414E47555420434F4D504F4E454E542D35353320),
  (0x18A29, 0x54414E47555420434F4D504F4E454E542D35353420),
  (0x18A2A, 0x54414E47555420434F4D504F4E454E542D35353520)]
def names_388 : List (Nat × Nat) := [
  (0x18A2B, 0x54414E47555420434F4D504F4E454E542D35353620),
  (0x18A2C, 0x54414E47555420434F4D504F4E454E542D35353720),
  (0x18A2D, 0x54414E47555420434F4D504F4E454E542D35353820),
  (0x18A2E, 0x54414E47555420434F4D504F4E454E542D35353920),
  (0x18A2F, 0x54414E47555420434F4D504F4E454E542D35363020),
  (0x18A30, 0x54414E47555420434F4D504F4E454E542D35363120),
  (0x18A31, 0x54414E47555420434F4D504F4E454E542D35363220),
  (0x18A32, 0x54414E47555420434F4D504F4E454E542D35363320),
  (0x18A33, 0x54414E47555420434F4D504F4E454E542D35363420),
  (0x18A34, 0x54414E47555420434F4D504F4E454E542D35363520),
  (0x18A35, 0x54414E47555420434F4D504F4E454E542D35363620),
  (0x18A36, 0x54414E47555420434F4D504F4E454E542D35363720),
  (0x18A37, 0x54414E47555420434F4D504F4E454E542D35363820),
  (0x18A38, 0x54414E47555420434F4D504F4E454E542D35363920),
  (0x18A39, 0x54414E47555420434F4D504F4E454E542D35373020),
  (0x18A3A, 0x54414E47555420434F4D504F4E454E542D35373120),
  (0x18A3B, 0x54414E47555420434F4D504F4E454E542D35373220),
  (0x18A3C, 0x54414E47555420434F4D504F4E454E542D35373320),
  (0x18A3D, 0x54414E47555420434F4D504F4E454E542D35373420),
  (0x18A3E, 0x54414E47555420434F4D504F4E454E542D35373520),
  (0x18A3F, 0x54414E47555420434F4D504F4E454E542D35373620),
  (0x18A40, 0x54414E47555420434F4D504F4E454E542D35373720),
  (0x18A41, 0x54414E47555420434F4D504F4E454E542D35373820),
  (0x18A42, 0x54414E47555420434F4D504F4E454E542D35373920),
  (0x18A43, 0x54414E47555420434F4D504F4E454E542D35383020),
  (0x18A44, 0x54414E47555420434F4D504F4E454E542D35383120),
  (0x18A45, 0x54414E47555420434F4D504F4E454E542D35383220),
  (0x18A46, 0x54414E47555420434F4D504F4E454E542D35383320),
  (0x18A47, 0x54414E47555420434F4D504F4E454E542D35383420),
  (0x18A48, 0x54414E47555420434F4D504F4E454E542D35383520),
  (0x18A49, 0x54414E47555420434F4D504F4E454E542D35383620),
  (0x18A4A, 0x54414E47555420434F4D504F4E454E542D35383720),
  (0x18A4B, 0x54414E47555420434F4D504F4E454E542D35383820),
  (0x18A4C, 0x54414E47555420434F4D504F4E454E542D35383920),
  (0x18A4D, 0x54414E47555420434F4D504F4E454E542D35393020),
  (0x18A4E, 0x54414E47555420434F4D504F4E454E542D35393120),
  (0x18A4F, 0x54414E47555420434F4D504F4E454E542D35393220),
  (0x18A50, 0x54414E47555420434F4D504F4E454E542D35393320),
  (0x18A51, 0x54414E47555420434F4D504F4E454E542D35393420),
  (0x18A52, 0x54414E47555420434F4D504F4E454E542D35393520),
  (0x18A53, 0x54414E47555420434F4D504F4E454E542D35393620),
  (0x18A54, 0x54414E47555420434F4D504F4E454E542D35393720),
  (0x18A55, 0x54414E47555420434F4D504F4E454E542D35393820),
  (0x18A56, 0x54414E47555420434F4D504F4E454E542D35393920),
  (0x18A57, 0x54414E47555420434F4D504F4E454E542D36303020),
  (0x18A58, 0x54414E47555420434F4D504F4E454E542D36303120),
  (0x18A59, 0x54414E47555420434F4D504F4E454E542D36303220),
  (0x18A5A, 0x54414E47555420434F4D504F4E454E542D36303320),
  (0x18A5B, 0x54414E47555420434F4D504F4E454E542D36303420),
  (0x18A5C, 0x54414E47555420434F4D504F4E454E542D36303520),
  (0x18A5D, 0x54414E47555420434F4D504F4E454E542D36303620),
  (0x18A5E, 0x54414E47555420434F4D504F4E454E542D36303720),
  (0x18A5F, 0x54414E47555420434F4D504F4E454E542D36303820),
  (0x18A60, 0x54414E47555420434F4D504F4E454E542D36303920),
  (0x18A61, 0x54414E47555420434F4D504F4E454E542D36313020),
  (0x18A62, 0x54414E47555420434F4D504F4E454E542D36313120),
  (0x18A63, 0x54414E47555420434F4D504F4E454E542D36313220),
  (0x18A64, 0x54414E47555420434F4D504F4E454E542D36313320),
  (0x18A65, 0x54414E47555420434F4D504F4E454E542D36313420),
  (0x18A66, 0x54414E47555420434F4D504F4E454E542D36313520),
  (0x18A67, 0x54414E47555420434F4D504F4E454E542D36313620),
  (0x18A68, 0x54414E47555420434F4D504F4E454E542D36313720),
  (0x18A69, 0x54414E47555420434F4D504F4E454E542D36313820),
  (0x18A6A, 0x54414E47555420434F4D504F4E454E542D36313920)]
def names_389 : List (Nat × Nat) := [
  (0x18A6B, 0x54414E47555420434F4D504F4E454E542D36323020),
  (0x18A6C, 0x54414E47555420434F4D504F4E454E542D36323120),
  (0x18A6D, 0x54414E47555420434F4D504F4E454E542D36323220),
  (0x18A6E, 0x54414E47555420434F4D504F4E454E542D36323320),
  (0x18A6F, 0x54414E47555420434F4D504F4E454E542D36323420),
  (0x18A70, 0x54414E47555420434F4D504F4E454E542D36323520),
  (0x18A71, 0x54414E47555420434F4D504F4E454E542D36323620),
  (0x18A72, 0x54414E47555420434F4D504F4E454E542D36323720),
  (0x18A73, 0x54414E47555420434F4D504F4E454E542D36323820),
  (0x18A74, 0x54414E47555420434F4D504F4E454E542D36323920),
  (0x18A75, 0x54414E47555420434F4D504F4E454E542D36333020),
  (0x18A76, 0x54414E47555420434F4D504F4E454E542D36333120),
  (0x18A77, 0x54414E47555420434F4D504F4E454E542D36333220),
  (0x18A78, 0x54414E47555420434F4D504F4E454E542D36333320),
  (0x18A79, 0x54414E47555420434F4D504F4E454E542D36333420),
  (0x18A7A, 0x54414E47555420434F4D504F4E454E542D36333520),
  (0x18A7B, 0x54414E47555420434F4D504F4E454E542D36333620),
  (0x18A7C, 0x54414E47555420434F4D504F4E454E542D36333720),
  (0x18A7D, 0x54414E47555420434F4D504F4E454E542D36333820),
  (0x18A7E, 0x54414E47555420434F4D504F4E454E542D36333920),
  (0x18A7F, 0x54414E47555420434F4D504F4E454E542D36343020),
  (0x18A80, 0x54414E47555420434F4D504F4E454E542D36343120),
  (0x18A81, 0x54414E47555420434F4D504F4E454E542D36343220),
  (0x18A82, 0x54414E47555420434F4D504F4E454E542D36343320),
  (0x18A83, 0x54414E47555420434F4D504F4E454E542D36343420),
  (0x18A84, 0x54414E47555420434F4D504F4E454E542D36343520),
  (0x18A85, 0x54414E47555420434F4D504F4E454E542D36343620),
  (0x18A86, 0x54414E47555420434F4D504F4E454E542D36343720),
  (0x18A87, 0x54414E47555420434F4D504F4E454E542D36343820),
  (0x18A88, 0x54414E47555420434F4D504F4E454E542D36343920),
  (0x18A89, 0x54414E47555420434F4D504F4E454E542D36353020),
  (0x18A8A, 0x54414E47555420434F4D504F4E454E542D36353120),
  (0x18A8B, 0x54414E47555420434F4D504F4E454E542D36353220),
  (0x18A8C, 0x54414E47555420434F4D504F4E454E542D36353320),
  (0x18A8D, 0x54414E47555420434F4D504F4E454E542D36353420),
  (0x18A8E, 0x54414E47555420434F4D504F4E454E542D36353520),
  (0x18A8F, 0x54414E47555420434F4D504F4E454E542D36353620),
  (0x18A90, 0x54414E47555420434F4D504F4E454E542D36353720),
  (0x18A91, 0x54414E47555420434F4D504F4E454E542D36353820),
  (0x18A92, 0x54414E47555420434F4D504F4E454E542D36353920),
  (0x18A93, 0x54414E47555420434F4D504F4E454E542D36363020),
  (0x18A94, 0x54414E47555420434F4D504F4E454E542D36363120),
  (0x18A95, 0x54414E47555420434F4D504F4E454E542D36363220),
  (0x18A96, 0x54414E47555420434F4D504F4E454E542D36363320),
  (0x18A97, 0x54414E47555420434F4D504F4E454E542D36363420),
  (0x18A98, 0x54414E47555420434F4D504F4E454E542D36363520),
  (0x18A99, 0x54414E47555420434F4D504F4E454E542D36363620),
  (0x18A9A, 0x54414E47555420434F4D504F4E454E542D36363720),
  (0x18A9B, 0x54414E47555420434F4D504F4E454E542D36363820),
  (0x18A9C, 0x54414E47555420434F4D504F4E454E542D36363920),
  (0x18A9D, 0x54414E47555420434F4D504F4E454E542D36373020),
  (0x18A9E, 0x54414E47555420434F4D504F4E454E542D36373120),
  (0x18A9F, 0x54414E47555420434F4D504F4E454E542D36373220),
  (0x18AA0, 0x54414E47555420434F4D504F4E454E542D36373320),
  (0x18AA1, 0x54414E47555420434F4D504F4E454E542D36373420),
  (0x18AA2, 0x54414E47555420434F4D504F4E454E542D36373520),
  (0x18AA3, 0x54414E47555420434F4D504F4E454E542D36373620),
  (0x18AA4, 0x54414E47555420434F4D504F4E454E542D36373720),
  (0x18AA5, 0x54414E47555420434F4D504F4E454E542D36373820),
  (0x18AA6, 0x54414E47555420434F4D504F4E454E542D36373920),
  (0x18AA7, 0x54414E47555420434F4D504F4E454E542D36383020),
  (0x18AA8, 0x54414E47555420434F4D504F4E454E542D36383120),
  (0x18AA9, 0x54414E47555420434F4D504F4E454E542D36383220),
  (0x18AAA, 0x54414E47555420434F4D504F4E454E542D36383320)]
def names_390 : List (Nat × Nat) := [
  (0x18AAB, 0x54414E47555420434F4D504F4E454E542D36383420),
  (0x18AAC, 0x54414E47555420434F4D504F4E454E542D36383520),
  (0x18AAD, 0x54414E47555420434F4D504F4E454E542D36383620),
  (0x18AAE, 0x54414E47555420434F4D504F4E454E542D36383720),
  (0x18AAF, 0x54414E47555420434F4D504F4E454E542D36383820),
  (0x18AB0, 0x54414E47555420434F4D504F4E454E542D36383920),
  (0x18AB1, 0x54414E47555420434F4D504F4E454E542D36393020),
  (0x18AB2, 0x54414E47555420434F4D504F4E454E542D36393120),
  (0x18AB3, 0x54414E47555420434F4D504F4E454E542D36393220),
  (0x18AB4, 0x54414E47555420434F4D504F4E454E542D36393320),
  (0x18AB5, 0x54414E47555420434F4D504F4E454E542D36393420),
  (0x18AB6, 0x54414E47555420434F4D504F4E454E542D36393520),
  (0x18AB7, 0x54414E47555420434F4D504F4E454E542D36393620),
  (0x18AB8, 0x54414E47555420434F4D504F4E454E542D36393720),
  (0x18AB9, 0x54414E47555420434F4D504F4E454E542D36393820),
  (0x18ABA, 0x54414E47555420434F4D504F4E454E542D36393920),
  (0x18ABB, 0x54414E47555420434F4D504F4E454E542D37303020),
  (0x18ABC, 0x54414E47555420434F4D504F4E454E542D37303120),
  (0x18ABD, 0x54414E47555420434F4D504F4E454E542D37303220),
  (0x18ABE, 0x54414E47555420434F4D504F4E454E542D37303320),
  (0x18ABF, 0x54414E47555420434F4D504F4E454E542D37303420),
  (0x18AC0, 0x54414E47555420434F4D504F4E454E542D37303520),
  (0x18AC1, 0x54414E47555420434F4D504F4E454E542D37303620),
  (0x18AC2, 0x54414E47555420434F4D504F4E454E542D37303720),
  (0x18AC3, 0x54414E47555420434F4D504F4E454E542D37303820),
  (0x18AC4, 0x54414E47555420434F4D504F4E454E542D37303920),
  (0x18AC5, 0x54414E47555420434F4D504F4E454E542D37313020),
  (0x18AC6, 0x54414E47555420434F4D504F4E454E542D37313120),
  (0x18AC7, 0x54414E47555420434F4D504F4E454E542D37313220),
  (0x18AC8, 0x54414E47555420434F4D504F4E454E542D37313320),
  (0x18AC9, 0x54414E47555420434F4D504F4E454E542D37313420),
  (0x18ACA, 0x54414E47555420434F4D504F4E454E542D37313520),
  (0x18ACB, 0x54414E47555420434F4D504F4E454E542D37313620),
  (0x18ACC, 0x54414E47555420434F4D504F4E454E542D37313720),
  (0x18ACD, 0x54414E47555420434F4D504F4E454E542D37313820),
  (0x18ACE, 0x54414E47555420434F4D504F4E454E542D37313920),
  (0x18ACF, 0x54414E47555420434F4D504F4E454E542D37323020),
  (0x18AD0, 0x54414E47555420434F4D504F4E454E542D37323120),
  (0x18AD1, 0x54414E47555420434F4D504F4E454E542D37323220),
  (0x18AD2, 0x54414E47555420434F4D504F4E454E542D37323320),
  (0x18AD3, 0x54414E47555420434F4D504F4E454E542D37323420),
  (0x18AD4, 0x54414E47555420434F4D504F4E454E542D37323520),
  (0x18AD5, 0x54414E47555420434F4D504F4E454E542D37323620),
  (0x18AD6, 0x54414E47555420434F4D504F4E454E542D37323720),
  (0x18AD7, 0x54414E47555420434F4D504F4E454E542D37323820),
  (0x18AD8, 0x54414E47555420434F4D504F4E454E542D37323920),
  (0x18AD9, 0x54414E47555420434F4D504F4E454E542D37333020),
  (0x18ADA, 0x54414E47555420434F4D504F4E454E542D37333120),
  (0x18ADB, 0x54414E47555420434F4D504F4E454E542D37333220),
  (0x18ADC, 0x54414E47555420434F4D504F4E454E542D37333320),
  (0x18ADD, 0x54414E47555420434F4D504F4E454E542D37333420),
  (0x18ADE, 0x54414E47555420434F4D504F4E454E542D37333520),
  (0x18ADF, 0x54414E47555420434F4D504F4E454E542D37333620),
  (0x18AE0, 0x54414E47555420434F4D504F4E454E542D37333720),
  (0x18AE1, 0x54414E47555420434F4D504F4E454E542D37333820),
  (0x18AE2, 0x54414E47555420434F4D504F4E454E542D37333920),
  (0x18AE3, 0x54414E47555420434F4D504F4E454E542D37343020),
  (0x18AE4, 0x54414E47555420434F4D504F4E454E542D37343120),
  (0x18AE5, 0x54414E47555420434F4D504F4E454E542D37343220),
  (0x18AE6, 0x54414E47555420434F4D504F4E454E542D37343320),
  (0x18AE7, 0x54414E47555420434F4D504F4E454E542D37343420),
  (0x18AE8, 0x54414E47555420434F4D504F4E454E542D37343520),
  (0x18AE9, 0x54414E47555420434F4D504F4E454E542D37343620),
  (0x18AEA, 0x54414E47555420434F4D504F4E454E542D37343720)]
def names_391 : List (Nat × Nat) := [
  (0x18AEB, 0x54414E47555420434F4D504F4E454E542D37343820),
  (0x18AEC, 0x54414E47555420434F4D504F4E454E542D37343920),
  (0x18AED, 0x54414E47555420434F4D504F4E454E542D37353020),
  (0x18AEE, 0x54414E47555420434F4D504F4E454E542D37353120),
  (0x18AEF, 0x54414E47555420434F4D504F4E454E542D37353220),
  (0x18AF0, 0x54414E47555420434F4D504F4E454E542D37353320),
  (0x18AF1, 0x54414E47555420434F4D504F4E454E542D37353420),
  (0x18AF2, 0x54414E47555420434F4D504F4E454E542D37353520),
  (0x1B000, 0x4B4154414B414E41204C45545445522041524348414943204520),
  (0x1B001, 0x4849524147414E41204C4554544552204152434841494320594520),
  (0x1B002, 0x48454E54414947414E41204C455454455220412D3120),
  (0x1B003, 0x48454E54414947414E41204C455454455220412D3220),
  (0x1B004, 0x48454E54414947414E41204C455454455220412D3320),
  (0x1B005, 0x48454E54414947414E41204C455454455220412D574F20),
  (0x1B006, 0x48454E54414947414E41204C455454455220492D3120),
  (0x1B007, 0x48454E54414947414E41204C455454455220492D3220),
  (0x1B008, 0x48454E54414947414E41204C455454455220492D3320),
  (0x1B009, 0x48454E54414947414E41204C455454455220492D3420),
  (0x1B00A, 0x48454E54414947414E41204C455454455220552D3120),
  (0x1B00B, 0x48454E54414947414E41204C455454455220552D3220),
  (0x1B00C, 0x48454E54414947414E41204C455454455220552D3320),
  (0x1B00D, 0x48454E54414947414E41204C455454455220552D3420),
  (0x1B00E, 0x48454E54414947414E41204C455454455220552D3520),
  (0x1B00F, 0x48454E54414947414E41204C455454455220452D3220),
  (0x1B010, 0x48454E54414947414E41204C455454455220452D3320),
  (0x1B011, 0x48454E54414947414E41204C455454455220452D3420),
  (0x1B012, 0x48454E54414947414E41204C455454455220452D3520),
  (0x1B013, 0x48454E54414947414E41204C455454455220452D3620),
  (0x1B014, 0x48454E54414947414E41204C4554544552204F2D3120),
  (0x1B015, 0x48454E54414947414E41204C4554544552204F2D3220),
  (0x1B016, 0x48454E54414947414E41204C4554544552204F2D3320),
  (0x1B017, 0x48454E54414947414E41204C4554544552204B412D3120),
  (0x1B018, 0x48454E54414947414E41204C4554544552204B412D3220),
  (0x1B019, 0x48454E54414947414E41204C4554544552204B412D3320),
  (0x1B01A, 0x48454E54414947414E41204C4554544552204B412D3420),
  (0x1B01B, 0x48454E54414947414E41204C4554544552204B412D3520),
  (0x1B01C, 0x48454E54414947414E41204C4554544552204B412D3620),
  (0x1B01D, 0x48454E54414947414E41204C4554544552204B412D3720),
  (0x1B01E, 0x48454E54414947414E41204C4554544552204B412D3820),
  (0x1B01F, 0x48454E54414947414E41204C4554544552204B412D3920),
  (0x1B020, 0x48454E54414947414E41204C4554544552204B412D313020),
  (0x1B021, 0x48454E54414947414E41204C4554544552204B412D313120),
  (0x1B022, 0x48454E54414947414E41204C4554544552204B412D4B4520),
  (0x1B023, 0x48454E54414947414E41204C4554544552204B492D3120),
  (0x1B024, 0x48454E54414947414E41204C4554544552204B492D3220),
  (0x1B025, 0x48454E54414947414E41204C4554544552204B492D3320),
  (0x1B026, 0x48454E54414947414E41204C4554544552204B492D3420),
  (0x1B027, 0x48454E54414947414E41204C4554544552204B492D3520),
  (0x1B028, 0x48454E54414947414E41204C4554544552204B492D3620),
  (0x1B029, 0x48454E54414947414E41204C4554544552204B492D3720),
  (0x1B02A, 0x48454E54414947414E41204C4554544552204B492D3820),
  (0x1B02B, 0x48454E54414947414E41204C4554544552204B552D3120),
  (0x1B02C, 0x48454E54414947414E41204C4554544552204B552D3220),
  (0x1B02D, 0x48454E54414947414E41204C4554544552204B552D3320),
  (0x1B02E, 0x48454E54414947414E41204C4554544552204B552D3420),
  (0x1B02F, 0x48454E54414947414E41204C4554544552204B552D3520),
  (0x1B030, 0x48454E54414947414E41204C4554544552204B552D3620),
  (0x1B031, 0x48454E54414947414E41204C4554544552204B552D3720),
  (0x1B032, 0x48454E54414947414E41204C4554544552204B452D3120),
  (0x1B033, 0x48454E54414947414E41204C4554544552204B452D3220),
  (0x1B034, 0x48454E54414947414E41204C4554544552204B452D3320),
  (0x1B035, 0x48454E54414947414E41204C4554544552204B452D3420),
  (0x1B036, 0x48454E54414947414E41204C4554544552204B452D3520),
  (0x1B037, 0x48454E54414947414E41204C4554544552204B452D3620)]
def names_392 : List (Nat × Nat) := [
  (0x1B038, 0x48454E54414947414E41204C4554544552204B4F2D3120),
  (0x1B039, 0x48454E54414947414E41204C4554544552204B4F2D3220),
  (0x1B03A, 0x48454E54414947414E41204C4554544552204B4F2D3320),
  (0x1B03B, 0x48454E54414947414E41204C4554544552204B4F2D4B4920),
  (0x1B03C, 0x48454E54414947414E41204C45545445522053412D3120),
  (0x1B03D, 0x48454E54414947414E41204C45545445522053412D3220),
  (0x1B03E, 0x48454E54414947414E41204C45545445522053412D3320),
  (0x1B03F, 0x48454E54414947414E41204C45545445522053412D3420),
  (0x1B040, 0x48454E54414947414E41204C45545445522053412D3520),
  (0x1B041, 0x48454E54414947414E41204C45545445522053412D3620),
  (0x1B042, 0x48454E54414947414E41204C45545445522053412D3720),
  (0x1B043, 0x48454E54414947414E41204C45545445522053412D3820),
  (0x1B044, 0x48454E54414947414E41204C45545445522053492D3120),
  (0x1B045, 0x48454E54414947414E41204C45545445522053492D3220),
  (0x1B046, 0x48454E54414947414E41204C45545445522053492D3320),
  (0x1B047, 0x48454E54414947414E41204C45545445522053492D3420),
  (0x1B048, 0x48454E54414947414E41204C45545445522053492D3520),
  (0x1B049, 0x48454E54414947414E41204C45545445522053492D3620),
  (0x1B04A, 0x48454E54414947414E41204C45545445522053552D3120),
  (0x1B04B, 0x48454E54414947414E41204C45545445522053552D3220),
  (0x1B04C, 0x48454E54414947414E41204C45545445522053552D3320),
  (0x1B04D, 0x48454E54414947414E41204C45545445522053552D3420),
  (0x1B04E, 0x48454E54414947414E41204C45545445522053552D3520),
  (0x1B04F, 0x48454E54414947414E41204C45545445522053552D3620),
  (0x1B050, 0x48454E54414947414E41204C45545445522053552D3720),
  (0x1B051, 0x48454E54414947414E41204C45545445522053552D3820),
  (0x1B052, 0x48454E54414947414E41204C45545445522053452D3120),
  (0x1B053, 0x48454E54414947414E41204C45545445522053452D3220),
  (0x1B054, 0x48454E54414947414E41204C45545445522053452D3320),
  (0x1B055, 0x48454E54414947414E41204C45545445522053452D3420),
  (0x1B056, 0x48454E54414947414E41204C45545445522053452D3520),
  (0x1B057, 0x48454E54414947414E41204C455454455220534F2D3120),
  (0x1B058, 0x48454E54414947414E41204C455454455220534F2D3220),
  (0x1B059, 0x48454E54414947414E41204C455454455220534F2D3320),
  (0x1B05A, 0x48454E54414947414E41204C455454455220534F2D3420),
  (0x1B05B, 0x48454E54414947414E41204C455454455220534F2D3520),
  (0x1B05C, 0x48454E54414947414E41204C455454455220534F2D3620),
  (0x1B05D, 0x48454E54414947414E41204C455454455220534F2D3720),
  (0x1B05E, 0x48454E54414947414E41204C45545445522054412D3120),
  (0x1B05F, 0x48454E54414947414E41204C45545445522054412D3220),
  (0x1B060, 0x48454E54414947414E41204C45545445522054412D3320),
  (0x1B061, 0x48454E54414947414E41204C45545445522054412D3420),
  (0x1B062, 0x48454E54414947414E41204C45545445522054492D3120),
  (0x1B063, 0x48454E54414947414E41204C45545445522054492D3220),
  (0x1B064, 0x48454E54414947414E41204C45545445522054492D3320),
  (0x1B065, 0x48454E54414947414E41204C45545445522054492D3420),
  (0x1B066, 0x48454E54414947414E41204C45545445522054492D3520),
  (0x1B067, 0x48454E54414947414E41204C45545445522054492D3620),
  (0x1B068, 0x48454E54414947414E41204C45545445522054492D3720),
  (0x1B069, 0x48454E54414947414E41204C45545445522054552D3120),
  (0x1B06A, 0x48454E54414947414E41204C45545445522054552D3220),
  (0x1B06B, 0x48454E54414947414E41204C45545445522054552D3320),
  (0x1B06C, 0x48454E54414947414E41204C45545445522054552D3420),
  (0x1B06D, 0x48454E54414947414E41204C45545445522054552D544F20),
  (0x1B06E, 0x48454E54414947414E41204C45545445522054452D3120),
  (0x1B06F, 0x48454E54414947414E41204C45545445522054452D3220),
  (0x1B070, 0x48454E54414947414E41204C45545445522054452D3320),
  (0x1B071, 0x48454E54414947414E41204C45545445522054452D3420),
  (0x1B072, 0x48454E54414947414E41204C45545445522054452D3520),
  (0x1B073, 0x48454E54414947414E41204C45545445522054452D3620),
  (0x1B074, 0x48454E54414947414E41204C45545445522054452D3720),
  (0x1B075, 0x48454E54414947414E41204C45545445522054452D3820),
  (0x1B076, 0x48454E54414947414E41204C45545445522054452D3920),
  (0x1B077, 0x48454E54414947414E41204C455454455220544F2D3120)]
def names_393 : List (Nat × Nat) := [
  (0x1B078, 0x48454E54414947414E41204C455454455220544F2D3220),
  (0x1B079, 0x48454E54414947414E41204C455454455220544F2D3320),
  (0x1B07A, 0x48454E54414947414E41204C455454455220544F2D3420),
  (0x1B07B, 0x48454E54414947414E41204C455454455220544F2D3520),
  (0x1B07C, 0x48454E54414947414E41204C455454455220544F2D3620),
  (0x1B07D, 0x48454E54414947414E41204C455454455220544F2D524120),
  (0x1B07E, 0x48454E54414947414E41204C4554544552204E412D3120),
  (0x1B07F, 0x48454E54414947414E41204C4554544552204E412D3220),
  (0x1B080, 0x48454E54414947414E41204C4554544552204E412D3320),
  (0x1B081, 0x48454E54414947414E41204C4554544552204E412D3420),
  (0x1B082, 0x48454E54414947414E41204C4554544552204E412D3520),
  (0x1B083, 0x48454E54414947414E41204C4554544552204E412D3620),
  (0x1B084, 0x48454E54414947414E41204C4554544552204E412D3720),
  (0x1B085, 0x48454E54414947414E41204C4554544552204E412D3820),
  (0x1B086, 0x48454E54414947414E41204C4554544552204E412D3920),
  (0x1B087, 0x48454E54414947414E41204C4554544552204E492D3120),
  (0x1B088, 0x48454E54414947414E41204C4554544552204E492D3220),
  (0x1B089, 0x48454E54414947414E41204C4554544552204E492D3320),
  (0x1B08A, 0x48454E54414947414E41204C4554544552204E492D3420),
  (0x1B08B, 0x48454E54414947414E41204C4554544552204E492D3520),
  (0x1B08C, 0x48454E54414947414E41204C4554544552204E492D3620),
  (0x1B08D, 0x48454E54414947414E41204C4554544552204E492D3720),
  (0x1B08E, 0x48454E54414947414E41204C4554544552204E492D544520),
  (0x1B08F, 0x48454E54414947414E41204C4554544552204E552D3120),
  (0x1B090, 0x48454E54414947414E41204C4554544552204E552D3220),
  (0x1B091, 0x48454E54414947414E41204C4554544552204E552D3320),
  (0x1B092, 0x48454E54414947414E41204C4554544552204E452D3120),
  (0x1B093, 0x48454E54414947414E41204C4554544552204E452D3220),
  (0x1B094, 0x48454E54414947414E41204C4554544552204E452D3320),
  (0x1B095, 0x48454E54414947414E41204C4554544552204E452D3420),
  (0x1B096, 0x48454E54414947414E41204C4554544552204E452D3520),
  (0x1B097, 0x48454E54414947414E41204C4554544552204E452D3620),
  (0x1B098, 0x48454E54414947414E41204C4554544552204E452D4B4F20),
  (0x1B099, 0x48454E54414947414E41204C4554544552204E4F2D3120),
  (0x1B09A, 0x48454E54414947414E41204C4554544552204E4F2D3220),
  (0x1B09B, 0x48454E54414947414E41204C4554544552204E4F2D3320),
  (0x1B09C, 0x48454E54414947414E41204C4554544552204E4F2D3420),
  (0x1B09D, 0x48454E54414947414E41204C4554544552204E4F2D3520),
  (0x1B09E, 0x48454E54414947414E41204C45545445522048412D3120),
  (0x1B09F, 0x48454E54414947414E41204C45545445522048412D3220),
  (0x1B0A0, 0x48454E54414947414E41204C45545445522048412D3320),
  (0x1B0A1, 0x48454E54414947414E41204C45545445522048412D3420),
  (0x1B0A2, 0x48454E54414947414E41204C45545445522048412D3520),
  (0x1B0A3, 0x48454E54414947414E41204C45545445522048412D3620),
  (0x1B0A4, 0x48454E54414947414E41204C45545445522048412D3720),
  (0x1B0A5, 0x48454E54414947414E41204C45545445522048412D3820),
  (0x1B0A6, 0x48454E54414947414E41204C45545445522048412D3920),
  (0x1B0A7, 0x48454E54414947414E41204C45545445522048412D313020),
  (0x1B0A8, 0x48454E54414947414E41204C45545445522048412D313120),
  (0x1B0A9, 0x48454E54414947414E41204C45545445522048492D3120),
  (0x1B0AA, 0x48454E54414947414E41204C45545445522048492D3220),
  (0x1B0AB, 0x48454E54414947414E41204C45545445522048492D3320),
  (0x1B0AC, 0x48454E54414947414E41204C45545445522048492D3420),
  (0x1B0AD, 0x48454E54414947414E41204C45545445522048492D3520),
  (0x1B0AE, 0x48454E54414947414E41204C45545445522048492D3620),
  (0x1B0AF, 0x48454E54414947414E41204C45545445522048492D3720),
  (0x1B0B0, 0x48454E54414947414E41204C45545445522048552D3120),
  (0x1B0B1, 0x48454E54414947414E41204C45545445522048552D3220),
  (0x1B0B2, 0x48454E54414947414E41204C45545445522048552D3320),
  (0x1B0B3, 0x48454E54414947414E41204C45545445522048452D3120),
  (0x1B0B4, 0x48454E54414947414E41204C45545445522048452D3220),
  (0x1B0B5, 0x48454E54414947414E41204C45545445522048452D3320),
  (0x1B0B6, 0x48454E54414947414E41204C45545445522048452D3420),
  (0x1B0B7, 0x48454E54414947414E41204C45545445522048452D3520)]
def names_394 : List (Nat × Nat) := [
  (0x1B0B8, 0x48454E54414947414E41204C45545445522048452D3620),
  (0x1B0B9, 0x48454E54414947414E41204C45545445522048452D3720),
  (0x1B0BA, 0x48454E54414947414E41204C455454455220484F2D3120),
  (0x1B0BB, 0x48454E54414947414E41204C455454455220484F2D3220),
  (0x1B0BC, 0x48454E54414947414E41204C455454455220484F2D3320),
  (0x1B0BD, 0x48454E54414947414E41204C455454455220484F2D3420),
  (0x1B0BE, 0x48454E54414947414E41204C455454455220484F2D3520),
  (0x1B0BF, 0x48454E54414947414E41204C455454455220484F2D3620),
  (0x1B0C0, 0x48454E54414947414E41204C455454455220484F2D3720),
  (0x1B0C1, 0x48454E54414947414E41204C455454455220484F2D3820),
  (0x1B0C2, 0x48454E54414947414E41204C4554544552204D412D3120),
  (0x1B0C3, 0x48454E54414947414E41204C4554544552204D412D3220),
  (0x1B0C4, 0x48454E54414947414E41204C4554544552204D412D3320),
  (0x1B0C5, 0x48454E54414947414E41204C4554544552204D412D3420),
  (0x1B0C6, 0x48454E54414947414E41204C4554544552204D412D3520),
  (0x1B0C7, 0x48454E54414947414E41204C4554544552204D412D3620),
  (0x1B0C8, 0x48454E54414947414E41204C4554544552204D412D3720),
  (0x1B0C9, 0x48454E54414947414E41204C4554544552204D492D3120),
  (0x1B0CA, 0x48454E54414947414E41204C4554544552204D492D3220),
  (0x1B0CB, 0x48454E54414947414E41204C4554544552204D492D3320),
  (0x1B0CC, 0x48454E54414947414E41204C4554544552204D492D3420),
  (0x1B0CD, 0x48454E54414947414E41204C4554544552204D492D3520),
  (0x1B0CE, 0x48454E54414947414E41204C4554544552204D492D3620),
  (0x1B0CF, 0x48454E54414947414E41204C4554544552204D492D3720),
  (0x1B0D0, 0x48454E54414947414E41204C4554544552204D552D3120),
  (0x1B0D1, 0x48454E54414947414E41204C4554544552204D552D3220),
  (0x1B0D2, 0x48454E54414947414E41204C4554544552204D552D3320),
  (0x1B0D3, 0x48454E54414947414E41204C4554544552204D552D3420),
  (0x1B0D4, 0x48454E54414947414E41204C4554544552204D452D3120),
  (0x1B0D5, 0x48454E54414947414E41204C4554544552204D452D3220),
  (0x1B0D6, 0x48454E54414947414E41204C4554544552204D452D4D4120),
  (0x1B0D7, 0x48454E54414947414E41204C4554544552204D4F2D3120),
  (0x1B0D8, 0x48454E54414947414E41204C4554544552204D4F2D3220),
  (0x1B0D9, 0x48454E54414947414E41204C4554544552204D4F2D3320),
  (0x1B0DA, 0x48454E54414947414E41204C4554544552204D4F2D3420),
  (0x1B0DB, 0x48454E54414947414E41204C4554544552204D4F2D3520),
  (0x1B0DC, 0x48454E54414947414E41204C4554544552204D4F2D3620),
  (0x1B0DD, 0x48454E54414947414E41204C45545445522059412D3120),
  (0x1B0DE, 0x48454E54414947414E41204C45545445522059412D3220),
  (0x1B0DF, 0x48454E54414947414E41204C45545445522059412D3320),
  (0x1B0E0, 0x48454E54414947414E41204C45545445522059412D3420),
  (0x1B0E1, 0x48454E54414947414E41204C45545445522059412D3520),
  (0x1B0E2, 0x48454E54414947414E41204C45545445522059412D594F20),
  (0x1B0E3, 0x48454E54414947414E41204C45545445522059552D3120),
  (0x1B0E4, 0x48454E54414947414E41204C45545445522059552D3220),
  (0x1B0E5, 0x48454E54414947414E41204C45545445522059552D3320),
  (0x1B0E6, 0x48454E54414947414E41204C45545445522059552D3420),
  (0x1B0E7, 0x48454E54414947414E41204C455454455220594F2D3120),
  (0x1B0E8, 0x48454E54414947414E41204C455454455220594F2D3220),
  (0x1B0E9, 0x48454E54414947414E41204C455454455220594F2D3320),
  (0x1B0EA, 0x48454E54414947414E41204C455454455220594F2D3420),
  (0x1B0EB, 0x48454E54414947414E41204C455454455220594F2D3520),
  (0x1B0EC, 0x48454E54414947414E41204C455454455220594F2D3620),
  (0x1B0ED, 0x48454E54414947414E41204C45545445522052412D3120),
  (0x1B0EE, 0x48454E54414947414E41204C45545445522052412D3220),
  (0x1B0EF, 0x48454E54414947414E41204C45545445522052412D3320),
  (0x1B0F0, 0x48454E54414947414E41204C45545445522052412D3420),
  (0x1B0F1, 0x48454E54414947414E41204C45545445522052492D3120),
  (0x1B0F2, 0x48454E54414947414E41204C45545445522052492D3220),
  (0x1B0F3, 0x48454E54414947414E41204C45545445522052492D3320),
  (0x1B0F4, 0x48454E54414947414E41204C45545445522052492D3420),
  (0x1B0F5, 0x48454E54414947414E41204C45545445522052492D3520),
  (0x1B0F6, 0x48454E54414947414E41204C45545445522052492D3620),
  (0x1B0F7, 0x48454E54414947414E41204C45545445522052492D3720)]
def names_395 : List (Nat × Nat) := [
  (0x1B0F8, 0x48454E54414947414E41204C45545445522052552D3120),
  (0x1B0F9, 0x48454E54414947414E41204C45545445522052552D3220),
  (0x1B0FA, 0x48454E54414947414E41204C45545445522052552D3320),
  (0x1B0FB, 0x48454E54414947414E41204C45545445522052552D3420),
  (0x1B0FC, 0x48454E54414947414E41204C45545445522052552D3520),
  (0x1B0FD, 0x48454E54414947414E41204C45545445522052552D3620),
  (0x1B0FE, 0x48454E54414947414E41204C45545445522052452D3120),
  (0x1B0FF, 0x48454E54414947414E41204C45545445522052452D3220),
  (0x1B100, 0x48454E54414947414E41204C45545445522052452D3320),
  (0x1B101, 0x48454E54414947414E41204C45545445522052452D3420),
  (0x1B102, 0x48454E54414947414E41204C455454455220524F2D3120),
  (0x1B103, 0x48454E54414947414E41204C455454455220524F2D3220),
  (0x1B104, 0x48454E54414947414E41204C455454455220524F2D3320),
  (0x1B105, 0x48454E54414947414E41204C455454455220524F2D3420),
  (0x1B106, 0x48454E54414947414E41204C455454455220524F2D3520),
  (0x1B107, 0x48454E54414947414E41204C455454455220524F2D3620),
  (0x1B108, 0x48454E54414947414E41204C45545445522057412D3120),
  (0x1B109, 0x48454E54414947414E41204C45545445522057412D3220),
  (0x1B10A, 0x48454E54414947414E41204C45545445522057412D3320),
  (0x1B10B, 0x48454E54414947414E41204C45545445522057412D3420),
  (0x1B10C, 0x48454E54414947414E41204C45545445522057412D3520),
  (0x1B10D, 0x48454E54414947414E41204C45545445522057492D3120),
  (0x1B10E, 0x48454E54414947414E41204C45545445522057492D3220),
  (0x1B10F, 0x48454E54414947414E41204C45545445522057492D3320),
  (0x1B110, 0x48454E54414947414E41204C45545445522057492D3420),
  (0x1B111, 0x48454E54414947414E41204C45545445522057492D3520),
  (0x1B112, 0x48454E54414947414E41204C45545445522057452D3120),
  (0x1B113, 0x48454E54414947414E41204C45545445522057452D3220),
  (0x1B114, 0x48454E54414947414E41204C45545445522057452D3320),
  (0x1B115, 0x48454E54414947414E41204C45545445522057452D3420),
  (0x1B116, 0x48454E54414947414E41204C455454455220574F2D3120),
  (0x1B117, 0x48454E54414947414E41204C455454455220574F2D3220),
  (0x1B118, 0x48454E54414947414E41204C455454455220574F2D3320),
  (0x1B119, 0x48454E54414947414E41204C455454455220574F2D3420),
  (0x1B11A, 0x48454E54414947414E41204C455454455220574F2D3520),
  (0x1B11B, 0x48454E54414947414E41204C455454455220574F2D3620),
  (0x1B11C, 0x48454E54414947414E41204C455454455220574F2D3720),
  (0x1B11D, 0x48454E54414947414E41204C4554544552204E2D4D552D4D4F2D3120),
  (0x1B11E, 0x48454E54414947414E41204C4554544552204E2D4D552D4D4F2D3220),
  (0x1B170, 0x4E55534855204348415241435445522D314231373020),
  (0x1B171, 0x4E55534855204348415241435445522D314231373120),
  (0x1B172, 0x4E55534855204348415241435445522D314231373220),
  (0x1B173, 0x4E55534855204348415241435445522D314231373320),
  (0x1B174, 0x4E55534855204348415241435445522D314231373420),
  (0x1B175, 0x4E55534855204348415241435445522D314231373520),
  (0x1B176, 0x4E55534855204348415241435445522D314231373620),
  (0x1B177, 0x4E55534855204348415241435445522D314231373720),
  (0x1B178, 0x4E55534855204348415241435445522D314231373820),
  (0x1B179, 0x4E55534855204348415241435445522D314231373920),
  (0x1B17A, 0x4E55534855204348415241435445522D314231374120),
  (0x1B17B, 0x4E55534855204348415241435445522D314231374220),
  (0x1B17C, 0x4E55534855204348415241435445522D314231374320),
  (0x1B17D, 0x4E55534855204348415241435445522D314231374420),
  (0x1B17E, 0x4E55534855204348415241435445522D314231374520),
  (0x1B17F, 0x4E55534855204348415241435445522D314231374620),
  (0x1B180, 0x4E55534855204348415241435445522D314231383020),
  (0x1B181, 0x4E55534855204348415241435445522D314231383120),
  (0x1B182, 0x4E55534855204348415241435445522D314231383220),
  (0x1B183, 0x4E55534855204348415241435445522D314231383320),
  (0x1B184, 0x4E55534855204348415241435445522D314231383420),
  (0x1B185, 0x4E55534855204348415241435445522D314231383520),
  (0x1B186, 0x4E55534855204348415241435445522D314231383620),
  (0x1B187, 0x4E55534855204348415241435445522D314231383720),
  (0x1B188, 0x4E55534855204348415241435445522D314231383820)]
def names_396 : List (Nat × Nat) := [
  (0x1B189, 0x4E55534855204348415241435445522D314231383920),
  (0x1B18A, 0x4E55534855204348415241435445522D314231384120),
  (0x1B18B, 0x4E55534855204348415241435445522D314231384220),
  (0x1B18C, 0x4E55534855204348415241435445522D314231384320),
  (0x1B18D, 0x4E55534855204348415241435445522D314231384420),
  (0x1B18E, 0x4E55534855204348415241435445522D314231384520),
  (0x1B18F, 0x4E55534855204348415241435445522D314231384620),
  (0x1B190, 0x4E55534855204348415241435445522D314231393020),
  (0x1B191, 0x4E55534855204348415241435445522D314231393120),
  (0x1B192, 0x4E55534855204348415241435445522D314231393220),
  (0x1B193, 0x4E55534855204348415241435445522D314231393320),
  (0x1B194, 0x4E55534855204348415241435445522D314231393420),
  (0x1B195, 0x4E55534855204348415241435445522D314231393520),
  (0x1B196, 0x4E55534855204348415241435445522D314231393620),
  (0x1B197, 0x4E55534855204348415241435445522D314231393720),
  (0x1B198, 0x4E55534855204348415241435445522D314231393820),
  (0x1B199, 0x4E55534855204348415241435445522D314231393920),
  (0x1B19A, 0x4E55534855204348415241435445522D314231394120),
  (0x1B19B, 0x4E55534855204348415241435445522D314231394220),
  (0x1B19C, 0x4E55534855204348415241435445522D314231394320),
  (0x1B19D, 0x4E55534855204348415241435445522D314231394420),
  (0x1B19E, 0x4E55534855204348415241435445522D314231394520),
  (0x1B19F, 0x4E55534855204348415241435445522D314231394620),
  (0x1B1A0, 0x4E55534855204348415241435445522D314231413020),
  (0x1B1A1, 0x4E55534855204348415241435445522D314231413120),
  (0x1B1A2, 0x4E55534855204348415241435445522D314231413220),
  (0x1B1A3, 0x4E55534855204348415241435445522D314231413320),
  (0x1B1A4, 0x4E55534855204348415241435445522D314231413420),
  (0x1B1A5, 0x4E55534855204348415241435445522D314231413520),
  (0x1B1A6, 0x4E55534855204348415241435445522D314231413620),
  (0x1B1A7, 0x4E55534855204348415241435445522D314231413720),
  (0x1B1A8, 0x4E55534855204348415241435445522D314231413820),
  (0x1B1A9, 0x4E55534855204348415241435445522D314231413920),
  (0x1B1AA, 0x4E55534855204348415241435445522D314231414120),
  (0x1B1AB, 0x4E55534855204348415241435445522D314231414220),
  (0x1B1AC, 0x4E55534855204348415241435445522D314231414320),
  (0x1B1AD, 0x4E55534855204348415241435445522D314231414420),
  (0x1B1AE, 0x4E55534855204348415241435445522D314231414520),
  (0x1B1AF, 0x4E55534855204348415241435445522D314231414620),
  (0x1B1B0, 0x4E55534855204348415241435445522D314231423020),
  (0x1B1B1, 0x4E55534855204348415241435445522D314231423120),
  (0x1B1B2, 0x4E55534855204348415241435445522D314231423220),
  (0x1B1B3, 0x4E55534855204348415241435445522D314231423320),
  (0x1B1B4, 0x4E55534855204348415241435445522D314231423420),
  (0x1B1B5, 0x4E55534855204348415241435445522D314231423520),
  (0x1B1B6, 0x4E55534855204348415241435445522D314231423620),
  (0x1B1B7, 0x4E55534855204348415241435445522D314231423720),
  (0x1B1B8, 0x4E55534855204348415241435445522D314231423820),
  (0x1B1B9, 0x4E55534855204348415241435445522D314231423920),
  (0x1B1BA, 0x4E55534855204348415241435445522D314231424120),
  (0x1B1BB, 0x4E55534855204348415241435445522D314231424220),
  (0x1B1BC, 0x4E55534855204348415241435445522D314231424320),
  (0x1B1BD, 0x4E55534855204348415241435445522D314231424420),
  (0x1B1BE, 0x4E55534855204348415241435445522D314231424520),
  (0x1B1BF, 0x4E55534855204348415241435445522D314231424620),
  (0x1B1C0, 0x4E55534855204348415241435445522D314231433020),
  (0x1B1C1, 0x4E55534855204348415241435445522D314231433120),
  (0x1B1C2, 0x4E55534855204348415241435445522D314231433220),
  (0x1B1C3, 0x4E55534855204348415241435445522D314231433320),
  (0x1B1C4, 0x4E55534855204348415241435445522D314231433420),
  (0x1B1C5, 0x4E55534855204348415241435445522D314231433520),
  (0x1B1C6, 0x4E55534855204348415241435445522D314231433620),
  (0x1B1C7, 0x4E55534855204348415241435445522D314231433720),
  (0x1B1C8, 0x4E55534855204348415241435445522D314231433820)]
def names_397 : List (Nat × Nat) := [
  (0x1B1C9, 0x4E55534855204348415241435445522D314231433920),
  (0x1B1CA, 0x4E55534855204348415241435445522D314231434120),
  (0x1B1CB, 0x4E55534855204348415241435445522D314231434220),
  (0x1B1CC, 0x4E55534855204348415241435445522D314231434320),
  (0x1B1CD, 0x4E55534855204348415241435445522D314231434420),
  (0x1B1CE, 0x4E55534855204348415241435445522D314231434520),
  (0x1B1CF, 0x4E55534855204348415241435445522D314231434620),
  (0x1B1D0, 0x4E55534855204348415241435445522D314231443020),
  (0x1B1D1, 0x4E55534855204348415241435445522D314231443120),
  (0x1B1D2, 0x4E55534855204348415241435445522D314231443220),
  (0x1B1D3, 0x4E55534855204348415241435445522D314231443320),
  (0x1B1D4, 0x4E55534855204348415241435445522D314231443420),
  (0x1B1D5, 0x4E55534855204348415241435445522D314231443520),
  (0x1B1D6, 0x4E55534855204348415241435445522D314231443620),
  (0x1B1D7, 0x4E55534855204348415241435445522D314231443720),
  (0x1B1D8, 0x4E55534855204348415241435445522D314231443820),
  (0x1B1D9, 0x4E55534855204348415241435445522D314231443920),
  (0x1B1DA, 0x4E55534855204348415241435445522D314231444120),
  (0x1B1DB, 0x4E55534855204348415241435445522D314231444220),
  (0x1B1DC, 0x4E55534855204348415241435445522D314231444320),
  (0x1B1DD, 0x4E55534855204348415241435445522D314231444420),
  (0x1B1DE, 0x4E55534855204348415241435445522D314231444520),
  (0x1B1DF, 0x4E55534855204348415241435445522D314231444620),
  (0x1B1E0, 0x4E55534855204348415241435445522D314231453020),
  (0x1B1E1, 0x4E55534855204348415241435445522D314231453120),
  (0x1B1E2, 0x4E55534855204348415241435445522D314231453220),
  (0x1B1E3, 0x4E55534855204348415241435445522D314231453320),
  (0x1B1E4, 0x4E55534855204348415241435445522D314231453420),
  (0x1B1E5, 0x4E55534855204348415241435445522D314231453520),
  (0x1B1E6, 0x4E55534855204348415241435445522D314231453620),
  (0x1B1E7, 0x4E55534855204348415241435445522D314231453720),
  (0x1B1E8, 0x4E55534855204348415241435445522D314231453820),
  (0x1B1E9, 0x4E55534855204348415241435445522D314231453920),
  (0x1B1EA, 0x4E55534855204348415241435445522D314231454120),
  (0x1B1EB, 0x4E55534855204348415241435445522D314231454220),
  (0x1B1EC, 0x4E55534855204348415241435445522D314231454320),
  (0x1B1ED, 0x4E55534855204348415241435445522D314231454420),
  (0x1B1EE, 0x4E55534855204348415241435445522D314231454520),
  (0x1B1EF, 0x4E55534855204348415241435445522D314231454620),
  (0x1B1F0, 0x4E55534855204348415241435445522D314231463020),
  (0x1B1F1, 0x4E55534855204348415241435445522D314231463120),
  (0x1B1F2, 0x4E55534855204348415241435445522D314231463220),
  (0x1B1F3, 0x4E55534855204348415241435445522D314231463320),
  (0x1B1F4, 0x4E55534855204348415241435445522D314231463420),
  (0x1B1F5, 0x4E55534855204348415241435445522D314231463520),
  (0x1B1F6, 0x4E55534855204348415241435445522D314231463620),
  (0x1B1F7, 0x4E55534855204348415241435445522D314231463720),
  (0x1B1F8, 0x4E55534855204348415241435445522D314231463820),
  (0x1B1F9, 0x4E55534855204348415241435445522D314231463920),
  (0x1B1FA, 0x4E55534855204348415241435445522D314231464120),
  (0x1B1FB, 0x4E55534855204348415241435445522D314231464220),
  (0x1B1FC, 0x4E55534855204348415241435445522D314231464320),
  (0x1B1FD, 0x4E55534855204348415241435445522D314231464420),
  (0x1B1FE, 0x4E55534855204348415241435445522D314231464520),
  (0x1B1FF, 0x4E55534855204348415241435445522D314231464620),
  (0x1B200, 0x4E55534855204348415241435445522D314232303020),
  (0x1B201, 0x4E55534855204348415241435445522D314232303120),
  (0x1B202, 0x4E55534855204348415241435445522D314232303220),
  (0x1B203, 0x4E55534855204348415241435445522D314232303320),
  (0x1B204, 0x4E55534855204348415241435445522D314232303420),
  (0x1B205, 0x4E55534855204348415241435445522D314232303520),
  (0x1B206, 0x4E55534855204348415241435445522D314232303620),
  (0x1B207, 0x4E55534855204348415241435445522D314232303720),
  (0x1B208, 0x4E55534855204348415241435445522D314232303820)]
def names_398 : List (Nat × Nat) := [
  (0x1B209, 0x4E55534855204348415241435445522D314232303920),
  (0x1B20A, 0x4E55534855204348415241435445522D314232304120),
  (0x1B20B, 0x4E55534855204348415241435445522D314232304220),
  (0x1B20C, 0x4E55534855204348415241435445522D314232304320),
  (0x1B20D, 0x4E55534855204348415241435445522D314232304420),
  (0x1B20E, 0x4E55534855204348415241435445522D314232304520),
  (0x1B20F, 0x4E55534855204348415241435445522D314232304620),
  (0x1B210, 0x4E55534855204348415241435445522D314232313020),
  (0x1B211, 0x4E55534855204348415241435445522D314232313120),
  (0x1B212, 0x4E55534855204348415241435445522D314232313220),
  (0x1B213, 0x4E55534855204348415241435445522D314232313320),
  (0x1B214, 0x4E55534855204348415241435445522D314232313420),
  (0x1B215, 0x4E55534855204348415241435445522D314232313520),
  (0x1B216, 0x4E55534855204348415241435445522D314232313620),
  (0x1B217, 0x4E55534855204348415241435445522D314232313720),
  (0x1B218, 0x4E55534855204348415241435445522D314232313820),
  (0x1B219, 0x4E55534855204348415241435445522D314232313920),
  (0x1B21A, 0x4E55534855204348415241435445522D314232314120),
  (0x1B21B, 0x4E55534855204348415241435445522D314232314220),
  (0x1B21C, 0x4E55534855204348415241435445522D314232314320),
  (0x1B21D, 0x4E55534855204348415241435445522D314232314420),
  (0x1B21E, 0x4E55534855204348415241435445522D314232314520),
  (0x1B21F, 0x4E55534855204348415241435445522D314232314620),
  (0x1B220, 0x4E55534855204348415241435445522D314232323020),
  (0x1B221, 0x4E55534855204348415241435445522D314232323120),
  (0x1B222, 0x4E55534855204348415241435445522D314232323220),
  (0x1B223, 0x4E55534855204348415241435445522D314232323320),
  (0x1B224, 0x4E55534855204348415241435445522D314232323420),
  (0x1B225, 0x4E55534855204348415241435445522D314232323520),
  (0x1B226, 0x4E55534855204348415241435445522D314232323620),
  (0x1B227, 0x4E55534855204348415241435445522D314232323720),
  (0x1B228, 0x4E55534855204348415241435445522D314232323820),
  (0x1B229, 0x4E55534855204348415241435445522D314232323920),
  (0x1B22A, 0x4E55534855204348415241435445522D314232324120),
  (0x1B22B, 0x4E55534855204348415241435445522D314232324220),
  (0x1B22C, 0x4E55534855204348415241435445522D314232324320),
  (0x1B22D, 0x4E55534855204348415241435445522D314232324420),
  (0x1B22E, 0x4E55534855204348415241435445522D314232324520),
  (0x1B22F, 0x4E55534855204348415241435445522D314232324620),
  (0x1B230, 0x4E55534855204348415241435445522D314232333020),
  (0x1B231, 0x4E55534855204348415241435445522D314232333120),
  (0x1B232, 0x4E55534855204348415241435445522D314232333220),
  (0x1B233, 0x4E55534855204348415241435445522D314232333320),
  (0x1B234, 0x4E55534855204348415241435445522D314232333420),
  (0x1B235, 0x4E55534855204348415241435445522D314232333520),
  (0x1B236, 0x4E55534855204348415241435445522D314232333620),
  (0x1B237, 0x4E55534855204348415241435445522D314232333720),
  (0x1B238, 0x4E55534855204348415241435445522D314232333820),
  (0x1B239, 0x4E55534855204348415241435445522D314232333920),
  (0x1B23A, 0x4E55534855204348415241435445522D314232334120),
  (0x1B23B, 0x4E55534855204348415241435445522D314232334220),
  (0x1B23C, 0x4E55534855204348415241435445522D314232334320),
  (0x1B23D, 0x4E55534855204348415241435445522D314232334420),
  (0x1B23E, 0x4E55534855204348415241435445522D314232334520),
  (0x1B23F, 0x4E55534855204348415241435445522D314232334620),
  (0x1B240, 0x4E55534855204348415241435445522D314232343020),
  (0x1B241, 0x4E55534855204348415241435445522D314232343120),
  (0x1B242, 0x4E55534855204348415241435445522D314232343220),
  (0x1B243, 0x4E55534855204348415241435445522D314232343320),
  (0x1B244, 0x4E55534855204348415241435445522D314232343420),
  (0x1B245, 0x4E55534855204348415241435445522D314232343520),
  (0x1B246, 0x4E55534855204348415241435445522D314232343620),
  (0x1B247, 0x4E55534855204348415241435445522D314232343720),
  (0x1B248, 0x4E55534855204348415241435445522D314232343820)]
def names_399 : List (Nat × Nat) := [
  (0x1B249, 0x4E55534855204348415241435445522D314232343920),
  (0x1B24A, 0x4E55534855204348415241435445522D314232344120),
  (0x1B24B, 0x4E55534855204348415241435445522D314232344220),
  (0x1B24C, 0x4E55534855204348415241435445522D314232344320),
  (0x1B24D, 0x4E55534855204348415241435445522D314232344420),
  (0x1B24E, 0x4E55534855204348415241435445522D314232344520),
  (0x1B24F, 0x4E55534855204348415241435445522D314232344620),
  (0x1B250, 0x4E55534855204348415241435445522D314232353020),
  (0x1B251, 0x4E55534855204348415241435445522D314232353120),
  (0x1B252, 0x4E55534855204348415241435445522D314232353220),
  (0x1B253, 0x4E55534855204348415241435445522D314232353320),
  (0x1B254, 0x4E55534855204348415241435445522D314232353420),
  (0x1B255, 0x4E55534855204348415241435445522D314232353520),
  (0x1B256, 0x4E55534855204348415241435445522D314232353620),
  (0x1B257, 0x4E55534855204348415241435445522D314232353720),
  (0x1B258, 0x4E55534855204348415241435445522D314232353820),
  (0x1B259, 0x4E55534855204348415241435445522D314232353920),
  (0x1B25A, 0x4E55534855204348415241435445522D314232354120),
  (0x1B25B, 0x4E55534855204348415241435445522D314232354220),
  (0x1B25C, 0x4E55534855204348415241435445522D314232354320),
  (0x1B25D, 0x4E55534855204348415241435445522D314232354420),
  (0x1B25E, 0x4E55534855204348415241435445522D314232354520),
  (0x1B25F, 0x4E55534855204348415241435445522D314232354620),
  (0x1B260, 0x4E55534855204348415241435445522D314232363020),
  (0x1B261, 0x4E55534855204348415241435445522D314232363120),
  (0x1B262, 0x4E55534855204348415241435445522D314232363220),
  (0x1B263, 0x4E55534855204348415241435445522D314232363320),
  (0x1B264, 0x4E55534855204348415241435445522D314232363420),
  (0x1B265, 0x4E55534855204348415241435445522D314232363520),
  (0x1B266, 0x4E55534855204348415241435445522D314232363620),
  (0x1B267, 0x4E55534855204348415241435445522D314232363720),
  (0x1B268, 0x4E55534855204348415241435445522D314232363820),
  (0x1B269, 0x4E55534855204348415241435445522D314232363920),
  (0x1B26A, 0x4E55534855204348415241435445522D314232364120),
  (0x1B26B, 0x4E55534855204348415241435445522D314232364220),
  (0x1B26C, 0x4E55534855204348415241435445522D314232364320),
  (0x1B26D, 0x4E55534855204348415241435445522D314232364420),
  (0x1B26E, 0x4E55534855204348415241435445522D314232364520),
  (0x1B26F, 0x4E55534855204348415241435445522D314232364620),
  (0x1B270, 0x4E55534855204348415241435445522D314232373020),
  (0x1B271, 0x4E55534855204348415241435445522D314232373120),
  (0x1B272, 0x4E55534855204348415241435445522D314232373220),
  (0x1B273, 0x4E55534855204348415241435445522D314232373320),
  (0x1B274, 0x4E55534855204348415241435445522D314232373420),
  (0x1B275, 0x4E55534855204348415241435445522D314232373520),
  (0x1B276, 0x4E55534855204348415241435445522D314232373620),
  (0x1B277, 0x4E55534855204348415241435445522D314232373720),
  (0x1B278, 0x4E55534855204348415241435445522D314232373820),
  (0x1B279, 0x4E55534855204348415241435445522D314232373920),
  (0x1B27A, 0x4E55534855204348415241435445522D314232374120),
  (0x1B27B, 0x4E55534855204348415241435445522D314232374220),
  (0x1B27C, 0x4E55534855204348415241435445522D314232374320),
  (0x1B27D, 0x4E55534855204348415241435445522D314232374420),
  (0x1B27E, 0x4E55534855204348415241435445522D314232374520),
  (0x1B27F, 0x4E55534855204348415241435445522D314232374620),
  (0x1B280, 0x4E55534855204348415241435445522D314232383020),
  (0x1B281, 0x4E55534855204348415241435445522D314232383120),
  (0x1B282, 0x4E55534855204348415241435445522D314232383220),
  (0x1B283, 0x4E55534855204348415241435445522D314232383320),
  (0x1B284, 0x4E55534855204348415241435445522D314232383420),
  (0x1B285, 0x4E55534855204348415241435445522D314232383520),
  (0x1B286, 0x4E55534855204348415241435445522D314232383620),
  (0x1B287, 0x4E55534855204348415241435445522D314232383720),
  (0x1B288, 0x4E55534855204348415241435445522D314232383820)]
def names_400 : List (Nat × Nat) := [
  (0x1B289, 0x4E55534855204348415241435445522D314232383920),
  (0x1B28A, 0x4E55534855204348415241435445522D314232384120),
  (0x1B28B, 0x4E55534855204348415241435445522D314232384220),
  (0x1B28C, 0x4E55534855204348415241435445522D314232384320),
  (0x1B28D, 0x4E55534855204348415241435445522D314232384420),
  (0x1B28E, 0x4E55534855204348415241435445522D314232384520),
  (0x1B28F, 0x4E55534855204348415241435445522D314232384620),
  (0x1B290, 0x4E55534855204348415241435445522D314232393020),
  (0x1B291, 0x4E55534855204348415241435445522D314232393120),
  (0x1B292, 0x4E55534855204348415241435445522D314232393220),
  (0x1B293, 0x4E55534855204348415241435445522D314232393320),
  (0x1B294, 0x4E55534855204348415241435445522D314232393420),
  (0x1B295, 0x4E55534855204348415241435445522D314232393520),
  (0x1B296, 0x4E55534855204348415241435445522D314232393620),
  (0x1B297, 0x4E55534855204348415241435445522D314232393720),
  (0x1B298, 0x4E55534855204348415241435445522D314232393820),
  (0x1B299, 0x4E55534855204348415241435445522D314232393920),
  (0x1B29A, 0x4E55534855204348415241435445522D314232394120),
  (0x1B29B, 0x4E55534855204348415241435445522D314232394220),
  (0x1B29C, 0x4E55534855204348415241435445522D314232394320),
  (0x1B29D, 0x4E55534855204348415241435445522D314232394420),
  (0x1B29E, 0x4E55534855204348415241435445522D314232394520),
  (0x1B29F, 0x4E55534855204348415241435445522D314232394620),
  (0x1B2A0, 0x4E55534855204348415241435445522D314232413020),
  (0x1B2A1, 0x4E55534855204348415241435445522D314232413120),
  (0x1B2A2, 0x4E55534855204348415241435445522D314232413220),
  (0x1B2A3, 0x4E55534855204348415241435445522D314232413320),
  (0x1B2A4, 0x4E55534855204348415241435445522D314232413420),
  (0x1B2A5, 0x4E55534855204348415241435445522D314232413520),
  (0x1B2A6, 0x4E55534855204348415241435445522D314232413620),
  (0x1B2A7, 0x4E55534855204348415241435445522D314232413720),
  (0x1B2A8, 0x4E55534855204348415241435445522D314232413820),
  (0x1B2A9, 0x4E55534855204348415241435445522D314232413920),
  (0x1B2AA, 0x4E55534855204348415241435445522D314232414120),
  (0x1B2AB, 0x4E55534855204348415241435445522D314232414220),
  (0x1B2AC, 0x4E55534855204348415241435445522D314232414320),
  (0x1B2AD, 0x4E55534855204348415241435445522D314232414420),
  (0x1B2AE, 0x4E55534855204348415241435445522D314232414520),
  (0x1B2AF, 0x4E55534855204348415241435445522D314232414620),
  (0x1B2B0, 0x4E55534855204348415241435445522D314232423020),
  (0x1B2B1, 0x4E55534855204348415241435445522D314232423120),
  (0x1B2B2, 0x4E55534855204348415241435445522D314232423220),
  (0x1B2B3, 0x4E55534855204348415241435445522D314232423320),
  (0x1B2B4, 0x4E55534855204348415241435445522D314232423420),
  (0x1B2B5, 0x4E55534855204348415241435445522D314232423520),
  (0x1B2B6, 0x4E55534855204348415241435445522D314232423620),
  (0x1B2B7, 0x4E55534855204348415241435445522D314232423720),
  (0x1B2B8, 0x4E55534855204348415241435445522D314232423820),
  (0x1B2B9, 0x4E55534855204348415241435445522D314232423920),
  (0x1B2BA, 0x4E55534855204348415241435445522D314232424120),
  (0x1B2BB, 0x4E55534855204348415241435445522D314232424220),
  (0x1B2BC, 0x4E55534855204348415241435445522D314232424320),
  (0x1B2BD, 0x4E55534855204348415241435445522D314232424420),
  (0x1B2BE, 0x4E55534855204348415241435445522D314232424520),
  (0x1B2BF, 0x4E55534855204348415241435445522D314232424620),
  (0x1B2C0, 0x4E55534855204348415241435445522D314232433020),
  (0x1B2C1, 0x4E55534855204348415241435445522D314232433120),
  (0x1B2C2, 0x4E55534855204348415241435445522D314232433220),
  (0x1B2C3, 0x4E55534855204348415241435445522D314232433320),
  (0x1B2C4, 0x4E55534855204348415241435445522D314232433420),
  (0x1B2C5, 0x4E55534855204348415241435445522D314232433520),
  (0x1B2C6, 0x4E55534855204348415241435445522D314232433620),
  (0x1B2C7, 0x4E55534855204348415241435445522D314232433720),
  (0x1B2C8, 0x4E55534855204348415241435445522D314232433820)]
def names_401 : List (Nat × Nat) := [
  (0x1B2C9, 0x4E55534855204348415241435445522D314232433920),
  (0x1B2CA, 0x4E55534855204348415241435445522D314232434120),
  (0x1B2CB, 0x4E55534855204348415241435445522D314232434220),
  (0x1B2CC, 0x4E55534855204348415241435445522D314232434320),
  (0x1B2CD, 0x4E55534855204348415241435445522D314232434420),
  (0x1B2CE, 0x4E55534855204348415241435445522D314232434520),
  (0x1B2CF, 0x4E55534855204348415241435445522D314232434620),
  (0x1B2D0, 0x4E55534855204348415241435445522D314232443020),
  (0x1B2D1, 0x4E55534855204348415241435445522D314232443120),
  (0x1B2D2, 0x4E55534855204348415241435445522D314232443220),
  (0x1B2D3, 0x4E55534855204348415241435445522D314232443320),
  (0x1B2D4, 0x4E55534855204348415241435445522D314232443420),
  (0x1B2D5, 0x4E55534855204348415241435445522D314232443520),
  (0x1B2D6, 0x4E55534855204348415241435445522D314232443620),
  (0x1B2D7, 0x4E55534855204348415241435445522D314232443720),
  (0x1B2D8, 0x4E55534855204348415241435445522D314232443820),
  (0x1B2D9, 0x4E55534855204348415241435445522D314232443920),
  (0x1B2DA, 0x4E55534855204348415241435445522D314232444120),
  (0x1B2DB, 0x4E55534855204348415241435445522D314232444220),
  (0x1B2DC, 0x4E55534855204348415241435445522D314232444320),
  (0x1B2DD, 0x4E55534855204348415241435445522D314232444420),
  (0x1B2DE, 0x4E55534855204348415241435445522D314232444520),
  (0x1B2DF, 0x4E55534855204348415241435445522D314232444620),
  (0x1B2E0, 0x4E55534855204348415241435445522D314232453020),
  (0x1B2E1, 0x4E55534855204348415241435445522D314232453120),
  (0x1B2E2, 0x4E55534855204348415241435445522D314232453220),
  (0x1B2E3, 0x4E55534855204348415241435445522D314232453320),
  (0x1B2E4, 0x4E55534855204348415241435445522D314232453420),
  (0x1B2E5, 0x4E55534855204348415241435445522D314232453520),
  (0x1B2E6, 0x4E55534855204348415241435445522D314232453620),
  (0x1B2E7, 0x4E55534855204348415241435445522D314232453720),
  (0x1B2E8, 0x4E55534855204348415241435445522D314232453820),
  (0x1B2E9, 0x4E55534855204348415241435445522D314232453920),
  (0x1B2EA, 0x4E55534855204348415241435445522D314232454120),
  (0x1B2EB, 0x4E55534855204348415241435445522D314232454220),
  (0x1B2EC, 0x4E55534855204348415241435445522D314232454320),
  (0x1B2ED, 0x4E55534855204348415241435445522D314232454420),
  (0x1B2EE, 0x4E55534855204348415241435445522D314232454520),
  (0x1B2EF, 0x4E55534855204348415241435445522D314232454620),
  (0x1B2F0, 0x4E55534855204348415241435445522D314232463020),
  (0x1B2F1, 0x4E55534855204348415241435445522D314232463120),
  (0x1B2F2, 0x4E55534855204348415241435445522D314232463220),
  (0x1B2F3, 0x4E55534855204348415241435445522D314232463320),
  (0x1B2F4, 0x4E55534855204348415241435445522D314232463420),
  (0x1B2F5, 0x4E55534855204348415241435445522D314232463520),
  (0x1B2F6, 0x4E55534855204348415241435445522D314232463620),
  (0x1B2F7, 0x4E55534855204348415241435445522D314232463720),
  (0x1B2F8, 0x4E55534855204348415241435445522D314232463820),
  (0x1B2F9, 0x4E55534855204348415241435445522D314232463920),
  (0x1B2FA, 0x4E55534855204348415241435445522D314232464120),
  (0x1B2FB, 0x4E55534855204348415241435445522D314232464220),
  (0x1BC00, 0x4455504C4F59414E204C4554544552204820),
  (0x1BC01, 0x4455504C4F59414E204C4554544552205820),
  (0x1BC02, 0x4455504C4F59414E204C4554544552205020),
  (0x1BC03, 0x4455504C4F59414E204C4554544552205420),
  (0x1BC04, 0x4455504C4F59414E204C4554544552204620),
  (0x1BC05, 0x4455504C4F59414E204C4554544552204B20),
  (0x1BC06, 0x4455504C4F59414E204C4554544552204C20),
  (0x1BC07, 0x4455504C4F59414E204C4554544552204220),
  (0x1BC08, 0x4455504C4F59414E204C4554544552204420),
  (0x1BC09, 0x4455504C4F59414E204C4554544552205620),
  (0x1BC0A, 0x4455504C4F59414E204C4554544552204720),
  (0x1BC0B, 0x4455504C4F59414E204C4554544552205220),
  (0x1BC0C, 0x4455504C4F59414E204C45545445522050204E20)]
def names_402 : List (Nat × Nat) := [
  (0x1BC0D, 0x4455504C4F59414E204C45545445522044205320),
  (0x1BC0E, 0x4455504C4F59414E204C45545445522046204E20),
  (0x1BC0F, 0x4455504C4F59414E204C4554544552204B204D20),
  (0x1BC10, 0x4455504C4F59414E204C45545445522052205320),
  (0x1BC11, 0x4455504C4F59414E204C455454455220544820),
  (0x1BC12, 0x4455504C4F59414E204C455454455220534C4F414E20444820),
  (0x1BC13, 0x4455504C4F59414E204C455454455220444820),
  (0x1BC14, 0x4455504C4F59414E204C4554544552204B4B20),
  (0x1BC15, 0x4455504C4F59414E204C455454455220534C4F414E204A20),
  (0x1BC16, 0x4455504C4F59414E204C455454455220484C20),
  (0x1BC17, 0x4455504C4F59414E204C4554544552204C4820),
  (0x1BC18, 0x4455504C4F59414E204C455454455220524820),
  (0x1BC19, 0x4455504C4F59414E204C4554544552204D20),
  (0x1BC1A, 0x4455504C4F59414E204C4554544552204E20),
  (0x1BC1B, 0x4455504C4F59414E204C4554544552204A20),
  (0x1BC1C, 0x4455504C4F59414E204C4554544552205320),
  (0x1BC1D, 0x4455504C4F59414E204C4554544552204D204E20),
  (0x1BC1E, 0x4455504C4F59414E204C4554544552204E204D20),
  (0x1BC1F, 0x4455504C4F59414E204C4554544552204A204D20),
  (0x1BC20, 0x4455504C4F59414E204C45545445522053204A20),
  (0x1BC21, 0x4455504C4F59414E204C4554544552204D205749544820444F5420),
  (0x1BC22, 0x4455504C4F59414E204C4554544552204E205749544820444F5420),
  (0x1BC23, 0x4455504C4F59414E204C4554544552204A205749544820444F5420),
  (0x1BC24, 0x4455504C4F59414E204C4554544552204A205749544820444F545320494E5349444520414E442041424F564520),
  (0x1BC25, 0x4455504C4F59414E204C45545445522053205749544820444F5420),
  (0x1BC26, 0x4455504C4F59414E204C45545445522053205749544820444F542042454C4F5720),
  (0x1BC27, 0x4455504C4F59414E204C4554544552204D205320),
  (0x1BC28, 0x4455504C4F59414E204C4554544552204E205320),
  (0x1BC29, 0x4455504C4F59414E204C4554544552204A205320),
  (0x1BC2A, 0x4455504C4F59414E204C45545445522053205320),
  (0x1BC2B, 0x4455504C4F59414E204C4554544552204D204E205320),
  (0x1BC2C, 0x4455504C4F59414E204C4554544552204E204D205320),
  (0x1BC2D, 0x4455504C4F59414E204C4554544552204A204D205320),
  (0x1BC2E, 0x4455504C4F59414E204C45545445522053204A205320),
  (0x1BC2F, 0x4455504C4F59414E204C4554544552204A2053205749544820444F5420),
  (0x1BC30, 0x4455504C4F59414E204C4554544552204A204E20),
  (0x1BC31, 0x4455504C4F59414E204C4554544552204A204E205320),
  (0x1BC32, 0x4455504C4F59414E204C45545445522053205420),
  (0x1BC33, 0x4455504C4F59414E204C455454455220532054205220),
  (0x1BC34, 0x4455504C4F59414E204C45545445522053205020),
  (0x1BC35, 0x4455504C4F59414E204C455454455220532050205220),
  (0x1BC36, 0x4455504C4F59414E204C45545445522054205320),
  (0x1BC37, 0x4455504C4F59414E204C455454455220542052205320),
  (0x1BC38, 0x4455504C4F59414E204C4554544552205720),
  (0x1BC39, 0x4455504C4F59414E204C455454455220574820),
  (0x1BC3A, 0x4455504C4F59414E204C45545445522057205220),
  (0x1BC3B, 0x4455504C4F59414E204C45545445522053204E20),
  (0x1BC3C, 0x4455504C4F59414E204C45545445522053204D20),
  (0x1BC3D, 0x4455504C4F59414E204C4554544552204B2052205320),
  (0x1BC3E, 0x4455504C4F59414E204C455454455220472052205320),
  (0x1BC3F, 0x4455504C4F59414E204C45545445522053204B20),
  (0x1BC40, 0x4455504C4F59414E204C45545445522053204B205220),
  (0x1BC41, 0x4455504C4F59414E204C4554544552204120),
  (0x1BC42, 0x4455504C4F59414E204C455454455220534C4F414E204F5720),
  (0x1BC43, 0x4455504C4F59414E204C4554544552204F4120),
  (0x1BC44, 0x4455504C4F59414E204C4554544552204F20),
  (0x1BC45, 0x4455504C4F59414E204C455454455220414F5520),
  (0x1BC46, 0x4455504C4F59414E204C4554544552204920),
  (0x1BC47, 0x4455504C4F59414E204C4554544552204520),
  (0x1BC48, 0x4455504C4F59414E204C455454455220494520),
  (0x1BC49, 0x4455504C4F59414E204C45545445522053484F5254204920),
  (0x1BC4A, 0x4455504C4F59414E204C455454455220554920),
  (0x1BC4B, 0x4455504C4F59414E204C455454455220454520),
  (0x1BC4C, 0x4455504C4F59414E204C455454455220534C4F414E20454820)]
def names_403 : List (Nat × Nat) := [
  (0x1BC4D, 0x4455504C4F59414E204C455454455220524F4D414E49414E204920),
  (0x1BC4E, 0x4455504C4F59414E204C455454455220534C4F414E20454520),
  (0x1BC4F, 0x4455504C4F59414E204C4554544552204C4F4E47204920),
  (0x1BC50, 0x4455504C4F59414E204C455454455220594520),
  (0x1BC51, 0x4455504C4F59414E204C4554544552205520),
  (0x1BC52, 0x4455504C4F59414E204C455454455220455520),
  (0x1BC53, 0x4455504C4F59414E204C455454455220585720),
  (0x1BC54, 0x4455504C4F59414E204C45545445522055204E20),
  (0x1BC55, 0x4455504C4F59414E204C4554544552204C4F4E47205520),
  (0x1BC56, 0x4455504C4F59414E204C455454455220524F4D414E49414E205520),
  (0x1BC57, 0x4455504C4F59414E204C455454455220554820),
  (0x1BC58, 0x4455504C4F59414E204C455454455220534C4F414E205520),
  (0x1BC59, 0x4455504C4F59414E204C4554544552204F4F4820),
  (0x1BC5A, 0x4455504C4F59414E204C4554544552204F5720),
  (0x1BC5B, 0x4455504C4F59414E204C4554544552204F5520),
  (0x1BC5C, 0x4455504C4F59414E204C455454455220574120),
  (0x1BC5D, 0x4455504C4F59414E204C455454455220574F20),
  (0x1BC5E, 0x4455504C4F59414E204C455454455220574920),
  (0x1BC5F, 0x4455504C4F59414E204C45545445522057454920),
  (0x1BC60, 0x4455504C4F59414E204C455454455220574F5720),
  (0x1BC61, 0x4455504C4F59414E204C4554544552204E4153414C205520),
  (0x1BC62, 0x4455504C4F59414E204C4554544552204E4153414C204F20),
  (0x1BC63, 0x4455504C4F59414E204C4554544552204E4153414C204920),
  (0x1BC64, 0x4455504C4F59414E204C4554544552204E4153414C204120),
  (0x1BC65, 0x4455504C4F59414E204C4554544552205045524E494E20414E20),
  (0x1BC66, 0x4455504C4F59414E204C4554544552205045524E494E20414D20),
  (0x1BC67, 0x4455504C4F59414E204C455454455220534C4F414E20454E20),
  (0x1BC68, 0x4455504C4F59414E204C455454455220534C4F414E20414E20),
  (0x1BC69, 0x4455504C4F59414E204C455454455220534C4F414E204F4E20),
  (0x1BC6A, 0x4455504C4F59414E204C455454455220564F43414C4943204D20),
  (0x1BC70, 0x4455504C4F59414E204146464958204C45465420484F52495A4F4E54414C20534543414E5420),
  (0x1BC71, 0x4455504C4F59414E204146464958204D494420484F52495A4F4E54414C20534543414E5420),
  (0x1BC72, 0x4455504C4F59414E20414646495820524947485420484F52495A4F4E54414C20534543414E5420),
  (0x1BC73, 0x4455504C4F59414E204146464958204C4F5720564552544943414C20534543414E5420),
  (0x1BC74, 0x4455504C4F59414E204146464958204D494420564552544943414C20534543414E5420),
  (0x1BC75, 0x4455504C4F59414E204146464958204849474820564552544943414C20534543414E5420),
  (0x1BC76, 0x4455504C4F59414E20414646495820415454414348454420534543414E5420),
  (0x1BC77, 0x4455504C4F59414E204146464958204154544143484544204C4546542D544F2D524947485420534543414E5420),
  (0x1BC78, 0x4455504C4F59414E2041464649582041545441434845442054414E47454E5420),
  (0x1BC79, 0x4455504C4F59414E204146464958204154544143484544205441494C20),
  (0x1BC7A, 0x4455504C4F59414E204146464958204154544143484544204520484F4F4B20),
  (0x1BC7B, 0x4455504C4F59414E204146464958204154544143484544204920484F4F4B20),
  (0x1BC7C, 0x4455504C4F59414E2041464649582041545441434845442054414E47454E5420484F4F4B20),
  (0x1BC80, 0x4455504C4F59414E204146464958204849474820414355544520),
  (0x1BC81, 0x4455504C4F59414E204146464958204849474820544947485420414355544520),
  (0x1BC82, 0x4455504C4F59414E204146464958204849474820475241564520),
  (0x1BC83, 0x4455504C4F59414E2041464649582048494748204C4F4E4720475241564520),
  (0x1BC84, 0x4455504C4F59414E204146464958204849474820444F5420),
  (0x1BC85, 0x4455504C4F59414E204146464958204849474820434952434C4520),
  (0x1BC86, 0x4455504C4F59414E2041464649582048494748204C494E4520),
  (0x1BC87, 0x4455504C4F59414E2041464649582048494748205741564520),
  (0x1BC88, 0x4455504C4F59414E204146464958204849474820564552544943414C20),
  (0x1BC90, 0x4455504C4F59414E204146464958204C4F5720414355544520),
  (0x1BC91, 0x4455504C4F59414E204146464958204C4F5720544947485420414355544520),
  (0x1BC92, 0x4455504C4F59414E204146464958204C4F5720475241564520),
  (0x1BC93, 0x4455504C4F59414E204146464958204C4F57204C4F4E4720475241564520),
  (0x1BC94, 0x4455504C4F59414E204146464958204C4F5720444F5420),
  (0x1BC95, 0x4455504C4F59414E204146464958204C4F5720434952434C4520),
  (0x1BC96, 0x4455504C4F59414E204146464958204C4F57204C494E4520),
  (0x1BC97, 0x4455504C4F59414E204146464958204C4F57205741564520),
  (0x1BC98, 0x4455504C4F59414E204146464958204C4F5720564552544943414C20),
  (0x1BC99, 0x4455504C4F59414E204146464958204C4F57204152524F5720),
  (0x1BC9C, 0x4455504C4F59414E205349474E204F20574954482043524F535320),
  (0x1BC9D, 0x4455504C4F59414E20544849434B204C45545445522053454C4543544F5220)]
def names_404 : List (Nat × Nat) := [
  (0x1BC9E, 0x4455504C4F59414E20444F55424C45204D41524B20),
  (0x1BC9F, 0x4455504C4F59414E2050554E4354554154494F4E204348494E4F4F4B2046554C4C2053544F5020),
  (0x1BCA0, 0x53484F525448414E4420464F524D4154204C4554544552204F5645524C415020),
  (0x1BCA1, 0x53484F525448414E4420464F524D415420434F4E54494E55494E47204F5645524C415020),
  (0x1BCA2, 0x53484F525448414E4420464F524D415420444F574E205354455020),
  (0x1BCA3, 0x53484F525448414E4420464F524D4154205550205354455020),
  (0x1D000, 0x42595A414E54494E45204D55534943414C2053594D424F4C205053494C4920),
  (0x1D001, 0x42595A414E54494E45204D55534943414C2053594D424F4C2044415345494120),
  (0x1D002, 0x42595A414E54494E45204D55534943414C2053594D424F4C205045524953504F4D454E4920),
  (0x1D003, 0x42595A414E54494E45204D55534943414C2053594D424F4C204F5845494120454B464F4E4954494B4F4E20),
  (0x1D004, 0x42595A414E54494E45204D55534943414C2053594D424F4C204F58454941204449504C4920),
  (0x1D005, 0x42595A414E54494E45204D55534943414C2053594D424F4C2056415245494120454B464F4E4954494B4F4E20),
  (0x1D006, 0x42595A414E54494E45204D55534943414C2053594D424F4C20564152454941204449504C4920),
  (0x1D007, 0x42595A414E54494E45204D55534943414C2053594D424F4C204B4154484953544920),
  (0x1D008, 0x42595A414E54494E45204D55534943414C2053594D424F4C205359524D4154494B4920),
  (0x1D009, 0x42595A414E54494E45204D55534943414C2053594D424F4C20504152414B4C4954494B4920),
  (0x1D00A, 0x42595A414E54494E45204D55534943414C2053594D424F4C2059504F4B524953495320),
  (0x1D00B, 0x42595A414E54494E45204D55534943414C2053594D424F4C2059504F4B5249534953204449504C4920),
  (0x1D00C, 0x42595A414E54494E45204D55534943414C2053594D424F4C204B52454D4153544920),
  (0x1D00D, 0x42595A414E54494E45204D55534943414C2053594D424F4C20415045534F20454B464F4E4954494B4F4E20),
  (0x1D00E, 0x42595A414E54494E45204D55534943414C2053594D424F4C2045584F20454B464F4E4954494B4F4E20),
  (0x1D00F, 0x42595A414E54494E45204D55534943414C2053594D424F4C2054454C45494120),
  (0x1D010, 0x42595A414E54494E45204D55534943414C2053594D424F4C204B454E54494D41544120),
  (0x1D011, 0x42595A414E54494E45204D55534943414C2053594D424F4C2041504F5354524F464F5320),
  (0x1D012, 0x42595A414E54494E45204D55534943414C2053594D424F4C2041504F5354524F464F53204449504C4920),
  (0x1D013, 0x42595A414E54494E45204D55534943414C2053594D424F4C2053594E45564D4120),
  (0x1D014, 0x42595A414E54494E45204D55534943414C2053594D424F4C20544849544120),
  (0x1D015, 0x42595A414E54494E45204D55534943414C2053594D424F4C204F4C49474F4E204152434841494F4E20),
  (0x1D016, 0x42595A414E54494E45204D55534943414C2053594D424F4C20474F52474F4E204152434841494F4E20),
  (0x1D017, 0x42595A414E54494E45204D55534943414C2053594D424F4C205053494C4F4E20),
  (0x1D018, 0x42595A414E54494E45204D55534943414C2053594D424F4C204348414D494C4F4E20),
  (0x1D019, 0x42595A414E54494E45204D55534943414C2053594D424F4C20564154485920),
  (0x1D01A, 0x42595A414E54494E45204D55534943414C2053594D424F4C2049534F4E204152434841494F4E20),
  (0x1D01B, 0x42595A414E54494E45204D55534943414C2053594D424F4C204B454E54494D41204152434841494F4E20),
  (0x1D01C, 0x42595A414E54494E45204D55534943414C2053594D424F4C204B454E54494D415441204152434841494F4E20),
  (0x1D01D, 0x42595A414E54494E45204D55534943414C2053594D424F4C20534158494D41544120),
  (0x1D01E, 0x42595A414E54494E45204D55534943414C2053594D424F4C205041524943484F4E20),
  (0x1D01F, 0x42595A414E54494E45204D55534943414C2053594D424F4C2053544156524F532041504F444558494120),
  (0x1D020, 0x42595A414E54494E45204D55534943414C2053594D424F4C204F5845494149204152434841494F4E20),
  (0x1D021, 0x42595A414E54494E45204D55534943414C2053594D424F4C2056415245494149204152434841494F4E20),
  (0x1D022, 0x42595A414E54494E45204D55534943414C2053594D424F4C2041504F4445524D41204152434841494F4E20),
  (0x1D023, 0x42595A414E54494E45204D55534943414C2053594D424F4C2041504F5448454D4120),
  (0x1D024, 0x42595A414E54494E45204D55534943414C2053594D424F4C204B4C41534D4120),
  (0x1D025, 0x42595A414E54494E45204D55534943414C2053594D424F4C205245564D4120),
  (0x1D026, 0x42595A414E54494E45204D55534943414C2053594D424F4C20504941534D41204152434841494F4E20),
  (0x1D027, 0x42595A414E54494E45204D55534943414C2053594D424F4C2054494E41474D4120),
  (0x1D028, 0x42595A414E54494E45204D55534943414C2053594D424F4C20414E41545249434849534D4120),
  (0x1D029, 0x42595A414E54494E45204D55534943414C2053594D424F4C20534549534D4120),
  (0x1D02A, 0x42595A414E54494E45204D55534943414C2053594D424F4C2053594E41474D41204152434841494F4E20),
  (0x1D02B, 0x42595A414E54494E45204D55534943414C2053594D424F4C2053594E41474D41204D4554412053544156524F5520),
  (0x1D02C, 0x42595A414E54494E45204D55534943414C2053594D424F4C204F5952414E49534D41204152434841494F4E20),
  (0x1D02D, 0x42595A414E54494E45204D55534943414C2053594D424F4C205448454D4120),
  (0x1D02E, 0x42595A414E54494E45204D55534943414C2053594D424F4C204C454D4F4920),
  (0x1D02F, 0x42595A414E54494E45204D55534943414C2053594D424F4C2044594F20),
  (0x1D030, 0x42595A414E54494E45204D55534943414C2053594D424F4C205452494120),
  (0x1D031, 0x42595A414E54494E45204D55534943414C2053594D424F4C205445535345524120),
  (0x1D032, 0x42595A414E54494E45204D55534943414C2053594D424F4C204B524154494D41544120),
  (0x1D033, 0x42595A414E54494E45204D55534943414C2053594D424F4C20415045534F2045584F204E454F20),
  (0x1D034, 0x42595A414E54494E45204D55534943414C2053594D424F4C204654484F5241204152434841494F4E20),
  (0x1D035, 0x42595A414E54494E45204D55534943414C2053594D424F4C20494D494654484F524120),
  (0x1D036, 0x42595A414E54494E45204D55534943414C2053594D424F4C2054524F4D494B4F4E204152434841494F4E20),
  (0x1D037, 0x42595A414E54494E45204D55534943414C2053594D424F4C204B41544156412054524F4D494B4F4E20),
  (0x1D038, 0x42595A414E54494E45204D55534943414C2053594D424F4C2050454C4153544F4E20),
  (0x1D039, 0x42595A414E54494E45204D55534943414C2053594D424F4C20505349464953544F4E20)]
def names_405 : List (Nat × Nat) := [
  (0x1D03A, 0x42595A414E54494E45204D55534943414C2053594D424F4C204B4F4E5445564D4120),
  (0x1D03B, 0x42595A414E54494E45204D55534943414C2053594D424F4C2043484F5245564D41204152434841494F4E20),
  (0x1D03C, 0x42595A414E54494E45204D55534943414C2053594D424F4C2052415049534D4120),
  (0x1D03D, 0x42595A414E54494E45204D55534943414C2053594D424F4C20504152414B414C45534D41204152434841494F4E20),
  (0x1D03E, 0x42595A414E54494E45204D55534943414C2053594D424F4C20504152414B4C4954494B49204152434841494F4E20),
  (0x1D03F, 0x42595A414E54494E45204D55534943414C2053594D424F4C204943484144494E20),
  (0x1D040, 0x42595A414E54494E45204D55534943414C2053594D424F4C204E414E4120),
  (0x1D041, 0x42595A414E54494E45204D55534943414C2053594D424F4C2050455441534D4120),
  (0x1D042, 0x42595A414E54494E45204D55534943414C2053594D424F4C204B4F4E5445564D4120414C4C4F20),
  (0x1D043, 0x42595A414E54494E45204D55534943414C2053594D424F4C2054524F4D494B4F4E20414C4C4F20),
  (0x1D044, 0x42595A414E54494E45204D55534943414C2053594D424F4C2053545241474749534D41544120),
  (0x1D045, 0x42595A414E54494E45204D55534943414C2053594D424F4C2047524F4E544849534D41544120),
  (0x1D046, 0x42595A414E54494E45204D55534943414C2053594D424F4C2049534F4E204E454F20),
  (0x1D047, 0x42595A414E54494E45204D55534943414C2053594D424F4C204F4C49474F4E204E454F20),
  (0x1D048, 0x42595A414E54494E45204D55534943414C2053594D424F4C204F58454941204E454F20),
  (0x1D049, 0x42595A414E54494E45204D55534943414C2053594D424F4C205045544153544920),
  (0x1D04A, 0x42595A414E54494E45204D55534943414C2053594D424F4C204B4F554649534D4120),
  (0x1D04B, 0x42595A414E54494E45204D55534943414C2053594D424F4C205045544153544F4B4F554649534D4120),
  (0x1D04C, 0x42595A414E54494E45204D55534943414C2053594D424F4C204B524154494D4F4B4F554649534D4120),
  (0x1D04D, 0x42595A414E54494E45204D55534943414C2053594D424F4C2050454C4153544F4E204E454F20),
  (0x1D04E, 0x42595A414E54494E45204D55534943414C2053594D424F4C204B454E54494D415441204E454F20414E4F20),
  (0x1D04F, 0x42595A414E54494E45204D55534943414C2053594D424F4C204B454E54494D41204E454F20414E4F20),
  (0x1D050, 0x42595A414E54494E45204D55534943414C2053594D424F4C20595053494C4920),
  (0x1D051, 0x42595A414E54494E45204D55534943414C2053594D424F4C2041504F5354524F464F53204E454F20),
  (0x1D052, 0x42595A414E54494E45204D55534943414C2053594D424F4C2041504F5354524F464F492053594E4445534D4F53204E454F20),
  (0x1D053, 0x42595A414E54494E45204D55534943414C2053594D424F4C2059504F52524F4920),
  (0x1D054, 0x42595A414E54494E45204D55534943414C2053594D424F4C204B524154494D4F59504F52524F4F4E20),
  (0x1D055, 0x42595A414E54494E45204D55534943414C2053594D424F4C20454C4146524F4E20),
  (0x1D056, 0x42595A414E54494E45204D55534943414C2053594D424F4C204348414D494C4920),
  (0x1D057, 0x42595A414E54494E45204D55534943414C2053594D424F4C204D494B524F4E2049534F4E20),
  (0x1D058, 0x42595A414E54494E45204D55534943414C2053594D424F4C20564152454941204E454F20),
  (0x1D059, 0x42595A414E54494E45204D55534943414C2053594D424F4C20504941534D41204E454F20),
  (0x1D05A, 0x42595A414E54494E45204D55534943414C2053594D424F4C20505349464953544F4E204E454F20),
  (0x1D05B, 0x42595A414E54494E45204D55534943414C2053594D424F4C204F4D414C4F4E20),
  (0x1D05C, 0x42595A414E54494E45204D55534943414C2053594D424F4C20414E54494B454E4F4D4120),
  (0x1D05D, 0x42595A414E54494E45204D55534943414C2053594D424F4C204C594749534D4120),
  (0x1D05E, 0x42595A414E54494E45204D55534943414C2053594D424F4C20504152414B4C4954494B49204E454F20),
  (0x1D05F, 0x42595A414E54494E45204D55534943414C2053594D424F4C20504152414B414C45534D41204E454F20),
  (0x1D060, 0x42595A414E54494E45204D55534943414C2053594D424F4C20455445524F4E20504152414B414C45534D4120),
  (0x1D061, 0x42595A414E54494E45204D55534943414C2053594D424F4C204B594C49534D4120),
  (0x1D062, 0x42595A414E54494E45204D55534943414C2053594D424F4C20414E54494B454E4F4B594C49534D4120),
  (0x1D063, 0x42595A414E54494E45204D55534943414C2053594D424F4C2054524F4D494B4F4E204E454F20),
  (0x1D064, 0x42595A414E54494E45204D55534943414C2053594D424F4C20454B5354524550544F4E20),
  (0x1D065, 0x42595A414E54494E45204D55534943414C2053594D424F4C2053594E41474D41204E454F20),
  (0x1D066, 0x42595A414E54494E45204D55534943414C2053594D424F4C205359524D4120),
  (0x1D067, 0x42595A414E54494E45204D55534943414C2053594D424F4C2043484F5245564D41204E454F20),
  (0x1D068, 0x42595A414E54494E45204D55534943414C2053594D424F4C204550454745524D4120),
  (0x1D069, 0x42595A414E54494E45204D55534943414C2053594D424F4C20534549534D41204E454F20),
  (0x1D06A, 0x42595A414E54494E45204D55534943414C2053594D424F4C205849524F4E204B4C41534D4120),
  (0x1D06B, 0x42595A414E54494E45204D55534943414C2053594D424F4C2054524F4D494B4F505349464953544F4E20),
  (0x1D06C, 0x42595A414E54494E45204D55534943414C2053594D424F4C20505349464953544F4C594749534D4120),
  (0x1D06D, 0x42595A414E54494E45204D55534943414C2053594D424F4C2054524F4D494B4F4C594749534D4120),
  (0x1D06E, 0x42595A414E54494E45204D55534943414C2053594D424F4C2054524F4D494B4F504152414B414C45534D4120),
  (0x1D06F, 0x42595A414E54494E45204D55534943414C2053594D424F4C20505349464953544F504152414B414C45534D4120),
  (0x1D070, 0x42595A414E54494E45204D55534943414C2053594D424F4C2054524F4D494B4F53594E41474D4120),
  (0x1D071, 0x42595A414E54494E45204D55534943414C2053594D424F4C20505349464953544F53594E41474D4120),
  (0x1D072, 0x42595A414E54494E45204D55534943414C2053594D424F4C20474F52474F53594E544845544F4E20),
  (0x1D073, 0x42595A414E54494E45204D55534943414C2053594D424F4C204152474F53594E544845544F4E20),
  (0x1D074, 0x42595A414E54494E45204D55534943414C2053594D424F4C20455445524F4E204152474F53594E544845544F4E20),
  (0x1D075, 0x42595A414E54494E45204D55534943414C2053594D424F4C204F5952414E49534D41204E454F20),
  (0x1D076, 0x42595A414E54494E45204D55534943414C2053594D424F4C205448454D415449534D4F532045534F20),
  (0x1D077, 0x42595A414E54494E45204D55534943414C2053594D424F4C205448454D415449534D4F532045584F20),
  (0x1D078, 0x42595A414E54494E45204D55534943414C2053594D424F4C205448454D412041504C4F554E20),
  (0x1D079, 0x42595A414E54494E45204D55534943414C2053594D424F4C2054484553204B41492041504F5448455320)]
def names_406 : List (Nat × Nat) := [
  (0x1D07A, 0x42595A414E54494E45204D55534943414C2053594D424F4C204B4154415641534D4120),
  (0x1D07B, 0x42595A414E54494E45204D55534943414C2053594D424F4C20454E444F464F4E4F4E20),
  (0x1D07C, 0x42595A414E54494E45204D55534943414C2053594D424F4C205946454E204B41544F20),
  (0x1D07D, 0x42595A414E54494E45204D55534943414C2053594D424F4C205946454E20414E4F20),
  (0x1D07E, 0x42595A414E54494E45204D55534943414C2053594D424F4C2053544156524F5320),
  (0x1D07F, 0x42595A414E54494E45204D55534943414C2053594D424F4C204B4C41534D4120414E4F20),
  (0x1D080, 0x42595A414E54494E45204D55534943414C2053594D424F4C204449504C49204152434841494F4E20),
  (0x1D081, 0x42595A414E54494E45204D55534943414C2053594D424F4C204B524154494D41204152434841494F4E20),
  (0x1D082, 0x42595A414E54494E45204D55534943414C2053594D424F4C204B524154494D4120414C4C4F20),
  (0x1D083, 0x42595A414E54494E45204D55534943414C2053594D424F4C204B524154494D41204E454F20),
  (0x1D084, 0x42595A414E54494E45204D55534943414C2053594D424F4C2041504F4445524D41204E454F20),
  (0x1D085, 0x42595A414E54494E45204D55534943414C2053594D424F4C2041504C4920),
  (0x1D086, 0x42595A414E54494E45204D55534943414C2053594D424F4C204449504C4920),
  (0x1D087, 0x42595A414E54494E45204D55534943414C2053594D424F4C20545249504C4920),
  (0x1D088, 0x42595A414E54494E45204D55534943414C2053594D424F4C205445545241504C4920),
  (0x1D089, 0x42595A414E54494E45204D55534943414C2053594D424F4C204B4F524F4E495320),
  (0x1D08A, 0x42595A414E54494E45204D55534943414C2053594D424F4C204C45494D4D4120454E4F53204348524F4E4F5520),
  (0x1D08B, 0x42595A414E54494E45204D55534943414C2053594D424F4C204C45494D4D412044594F204348524F4E4F4E20),
  (0x1D08C, 0x42595A414E54494E45204D55534943414C2053594D424F4C204C45494D4D41205452494F4E204348524F4E4F4E20),
  (0x1D08D, 0x42595A414E54494E45204D55534943414C2053594D424F4C204C45494D4D41205445535341524F4E204348524F4E4F4E20),
  (0x1D08E, 0x42595A414E54494E45204D55534943414C2053594D424F4C204C45494D4D4120494D4953454F53204348524F4E4F5520),
  (0x1D08F, 0x42595A414E54494E45204D55534943414C2053594D424F4C20474F52474F4E204E454F20414E4F20),
  (0x1D090, 0x42595A414E54494E45204D55534943414C2053594D424F4C20474F52474F4E2050415245535449474D454E4F4E20415249535445524120),
  (0x1D091, 0x42595A414E54494E45204D55534943414C2053594D424F4C20474F52474F4E2050415245535449474D454E4F4E20444558494120),
  (0x1D092, 0x42595A414E54494E45204D55534943414C2053594D424F4C204449474F52474F4E20),
  (0x1D093, 0x42595A414E54494E45204D55534943414C2053594D424F4C204449474F52474F4E2050415245535449474D454E4F4E204152495354455241204B41544F20),
  (0x1D094, 0x42595A414E54494E45204D55534943414C2053594D424F4C204449474F52474F4E2050415245535449474D454E4F4E20415249535445524120414E4F20),
  (0x1D095, 0x42595A414E54494E45204D55534943414C2053594D424F4C204449474F52474F4E2050415245535449474D454E4F4E20444558494120),
  (0x1D096, 0x42595A414E54494E45204D55534943414C2053594D424F4C20545249474F52474F4E20),
  (0x1D097, 0x42595A414E54494E45204D55534943414C2053594D424F4C204152474F4E20),
  (0x1D098, 0x42595A414E54494E45204D55534943414C2053594D424F4C20494D4944494152474F4E20),
  (0x1D099, 0x42595A414E54494E45204D55534943414C2053594D424F4C2044494152474F4E20),
  (0x1D09A, 0x42595A414E54494E45204D55534943414C2053594D424F4C2041474F474920504F4C49204152474920),
  (0x1D09B, 0x42595A414E54494E45204D55534943414C2053594D424F4C2041474F4749204152474F5445524920),
  (0x1D09C, 0x42595A414E54494E45204D55534943414C2053594D424F4C2041474F4749204152474920),
  (0x1D09D, 0x42595A414E54494E45204D55534943414C2053594D424F4C2041474F4749204D455452494120),
  (0x1D09E, 0x42595A414E54494E45204D55534943414C2053594D424F4C2041474F4749204D45534920),
  (0x1D09F, 0x42595A414E54494E45204D55534943414C2053594D424F4C2041474F474920474F52474920),
  (0x1D0A0, 0x42595A414E54494E45204D55534943414C2053594D424F4C2041474F474920474F52474F5445524920),
  (0x1D0A1, 0x42595A414E54494E45204D55534943414C2053594D424F4C2041474F474920504F4C4920474F52474920),
  (0x1D0A2, 0x42595A414E54494E45204D55534943414C2053594D424F4C204D415254595249412050524F544F53204943484F5320),
  (0x1D0A3, 0x42595A414E54494E45204D55534943414C2053594D424F4C204D4152545952494120414C4C492050524F544F53204943484F5320),
  (0x1D0A4, 0x42595A414E54494E45204D55534943414C2053594D424F4C204D41525459524941204445595445524F53204943484F5320),
  (0x1D0A5, 0x42595A414E54494E45204D55534943414C2053594D424F4C204D4152545952494120414C4C49204445595445524F53204943484F5320),
  (0x1D0A6, 0x42595A414E54494E45204D55534943414C2053594D424F4C204D4152545952494120545249544F53204943484F5320),
  (0x1D0A7, 0x42595A414E54494E45204D55534943414C2053594D424F4C204D4152545952494120545249464F4E49415320),
  (0x1D0A8, 0x42595A414E54494E45204D55534943414C2053594D424F4C204D41525459524941205445544152544F53204943484F5320),
  (0x1D0A9, 0x42595A414E54494E45204D55534943414C2053594D424F4C204D41525459524941205445544152544F53204C454745544F53204943484F5320),
  (0x1D0AA, 0x42595A414E54494E45204D55534943414C2053594D424F4C204D41525459524941204C454745544F53204943484F5320),
  (0x1D0AB, 0x42595A414E54494E45204D55534943414C2053594D424F4C204D4152545952494120504C4147494F53204943484F5320),
  (0x1D0AC, 0x42595A414E54494E45204D55534943414C2053594D424F4C204953414B49412054454C4F555320494348494D41544F5320),
  (0x1D0AD, 0x42595A414E54494E45204D55534943414C2053594D424F4C2041504F5354524F464F492054454C4F555320494348494D41544F5320),
  (0x1D0AE, 0x42595A414E54494E45204D55534943414C2053594D424F4C2046414E45524F534953205445545241464F4E49415320),
  (0x1D0AF, 0x42595A414E54494E45204D55534943414C2053594D424F4C2046414E45524F534953204D4F4E4F464F4E49415320),
  (0x1D0B0, 0x42595A414E54494E45204D55534943414C2053594D424F4C2046414E45524F534953204449464F4E49415320),
  (0x1D0B1, 0x42595A414E54494E45204D55534943414C2053594D424F4C204D41525459524941205641525953204943484F5320),
  (0x1D0B2, 0x42595A414E54494E45204D55534943414C2053594D424F4C204D415254595249412050524F544F5641525953204943484F5320),
  (0x1D0B3, 0x42595A414E54494E45204D55534943414C2053594D424F4C204D4152545952494120504C4147494F53205445544152544F53204943484F5320),
  (0x1D0B4, 0x42595A414E54494E45204D55534943414C2053594D424F4C20474F5254484D494B4F4E204E2041504C4F554E20),
  (0x1D0B5, 0x42595A414E54494E45204D55534943414C2053594D424F4C20474F5254484D494B4F4E204E204449504C4F554E20),
  (0x1D0B6, 0x42595A414E54494E45204D55534943414C2053594D424F4C20454E4152584953204B4149204654484F524120564F5520),
  (0x1D0B7, 0x42595A414E54494E45204D55534943414C2053594D424F4C20494D49464F4E4F4E20),
  (0x1D0B8, 0x42595A414E54494E45204D55534943414C2053594D424F4C20494D494654484F524F4E20),
  (0x1D0B9, 0x42595A414E54494E45204D55534943414C2053594D424F4C204654484F5241204152434841494F4E204445595445524F55204943484F5520)]
def names_407 : List (Nat × Nat) := [
  (0x1D0BA, 0x42595A414E54494E45204D55534943414C2053594D424F4C204654484F524120444941544F4E494B4920504120),
  (0x1D0BB, 0x42595A414E54494E45204D55534943414C2053594D424F4C204654484F524120444941544F4E494B49204E414E4120),
  (0x1D0BC, 0x42595A414E54494E45204D55534943414C2053594D424F4C204654484F5241204E414F53204943484F5320),
  (0x1D0BD, 0x42595A414E54494E45204D55534943414C2053594D424F4C204654484F524120444941544F4E494B4920444920),
  (0x1D0BE, 0x42595A414E54494E45204D55534943414C2053594D424F4C204654484F524120534B4C49524F4E20444941544F4E4F4E20444920),
  (0x1D0BF, 0x42595A414E54494E45204D55534943414C2053594D424F4C204654484F524120444941544F4E494B49204B4520),
  (0x1D0C0, 0x42595A414E54494E45204D55534943414C2053594D424F4C204654484F524120444941544F4E494B49205A4F20),
  (0x1D0C1, 0x42595A414E54494E45204D55534943414C2053594D424F4C204654484F524120444941544F4E494B49204E49204B41544F20),
  (0x1D0C2, 0x42595A414E54494E45204D55534943414C2053594D424F4C204654484F524120444941544F4E494B49204E4920414E4F20),
  (0x1D0C3, 0x42595A414E54494E45204D55534943414C2053594D424F4C204654484F5241204D414C414B4F4E204348524F4D41204449464F4E49415320),
  (0x1D0C4, 0x42595A414E54494E45204D55534943414C2053594D424F4C204654484F5241204D414C414B4F4E204348524F4D41204D4F4E4F464F4E49415320),
  (0x1D0C5, 0x42595A414E54494E45204D55534943414C2053594D424F4C204648544F524120534B4C49524F4E204348524F4D4120564153495320),
  (0x1D0C6, 0x42595A414E54494E45204D55534943414C2053594D424F4C204654484F524120534B4C49524F4E204348524F4D412053594E41464920),
  (0x1D0C7, 0x42595A414E54494E45204D55534943414C2053594D424F4C204654484F5241204E454E414E4F20),
  (0x1D0C8, 0x42595A414E54494E45204D55534943414C2053594D424F4C204348524F41205A59474F5320),
  (0x1D0C9, 0x42595A414E54494E45204D55534943414C2053594D424F4C204348524F41204B4C49544F4E20),
  (0x1D0CA, 0x42595A414E54494E45204D55534943414C2053594D424F4C204348524F412053504154484920),
  (0x1D0CB, 0x42595A414E54494E45204D55534943414C2053594D424F4C204654484F524120492059464553495320544554415254494D4F52494F4E20),
  (0x1D0CC, 0x42595A414E54494E45204D55534943414C2053594D424F4C204654484F524120454E41524D4F4E494F5320414E5449464F4E494120),
  (0x1D0CD, 0x42595A414E54494E45204D55534943414C2053594D424F4C205946455349532054524954494D4F52494F4E20),
  (0x1D0CE, 0x42595A414E54494E45204D55534943414C2053594D424F4C204449455349532054524954494D4F52494F4E20),
  (0x1D0CF, 0x42595A414E54494E45204D55534943414C2053594D424F4C2044494553495320544554415254494D4F52494F4E20),
  (0x1D0D0, 0x42595A414E54494E45204D55534943414C2053594D424F4C204449455349532041504C492044594F20444F44454B41544120),
  (0x1D0D1, 0x42595A414E54494E45204D55534943414C2053594D424F4C20444945534953204D4F4E4F4752414D4D4F53205445535345524120444F44454B41544120),
  (0x1D0D2, 0x42595A414E54494E45204D55534943414C2053594D424F4C204449455349532044494752414D4D4F5320455820444F44454B41544120),
  (0x1D0D3, 0x42595A414E54494E45204D55534943414C2053594D424F4C20444945534953205452494752414D4D4F53204F4B544F20444F44454B41544120),
  (0x1D0D4, 0x42595A414E54494E45204D55534943414C2053594D424F4C205946455349532041504C492044594F20444F44454B41544120),
  (0x1D0D5, 0x42595A414E54494E45204D55534943414C2053594D424F4C20594645534953204D4F4E4F4752414D4D4F53205445535345524120444F44454B41544120),
  (0x1D0D6, 0x42595A414E54494E45204D55534943414C2053594D424F4C205946455349532044494752414D4D4F5320455820444F44454B41544120),
  (0x1D0D7, 0x42595A414E54494E45204D55534943414C2053594D424F4C20594645534953205452494752414D4D4F53204F4B544F20444F44454B41544120),
  (0x1D0D8, 0x42595A414E54494E45204D55534943414C2053594D424F4C2047454E494B492044494553495320),
  (0x1D0D9, 0x42595A414E54494E45204D55534943414C2053594D424F4C2047454E494B492059464553495320),
  (0x1D0DA, 0x42595A414E54494E45204D55534943414C2053594D424F4C2044494153544F4C492041504C49204D494B524920),
  (0x1D0DB, 0x42595A414E54494E45204D55534943414C2053594D424F4C2044494153544F4C492041504C49204D4547414C4920),
  (0x1D0DC, 0x42595A414E54494E45204D55534943414C2053594D424F4C2044494153544F4C49204449504C4920),
  (0x1D0DD, 0x42595A414E54494E45204D55534943414C2053594D424F4C2044494153544F4C492054484553454F5320),
  (0x1D0DE, 0x42595A414E54494E45204D55534943414C2053594D424F4C2053494D414E5349532054484553454F5320),
  (0x1D0DF, 0x42595A414E54494E45204D55534943414C2053594D424F4C2053494D414E5349532054484553454F5320444953494D4F5520),
  (0x1D0E0, 0x42595A414E54494E45204D55534943414C2053594D424F4C2053494D414E5349532054484553454F532054524953494D4F5520),
  (0x1D0E1, 0x42595A414E54494E45204D55534943414C2053594D424F4C2053494D414E5349532054484553454F5320544554524153494D4F5520),
  (0x1D0E2, 0x42595A414E54494E45204D55534943414C2053594D424F4C2053494D414E53495320415253454F5320),
  (0x1D0E3, 0x42595A414E54494E45204D55534943414C2053594D424F4C2053494D414E53495320415253454F5320444953494D4F5520),
  (0x1D0E4, 0x42595A414E54494E45204D55534943414C2053594D424F4C2053494D414E53495320415253454F532054524953494D4F5520),
  (0x1D0E5, 0x42595A414E54494E45204D55534943414C2053594D424F4C2053494D414E53495320415253454F5320544554524153494D4F5520),
  (0x1D0E6, 0x42595A414E54494E45204D55534943414C2053594D424F4C2044494752414D4D4120474720),
  (0x1D0E7, 0x42595A414E54494E45204D55534943414C2053594D424F4C20444946544F47474F53204F5520),
  (0x1D0E8, 0x42595A414E54494E45204D55534943414C2053594D424F4C20535449474D4120),
  (0x1D0E9, 0x42595A414E54494E45204D55534943414C2053594D424F4C2041524B54494B4F20504120),
  (0x1D0EA, 0x42595A414E54494E45204D55534943414C2053594D424F4C2041524B54494B4F20564F5520),
  (0x1D0EB, 0x42595A414E54494E45204D55534943414C2053594D424F4C2041524B54494B4F20474120),
  (0x1D0EC, 0x42595A414E54494E45204D55534943414C2053594D424F4C2041524B54494B4F20444920),
  (0x1D0ED, 0x42595A414E54494E45204D55534943414C2053594D424F4C2041524B54494B4F204B4520),
  (0x1D0EE, 0x42595A414E54494E45204D55534943414C2053594D424F4C2041524B54494B4F205A4F20),
  (0x1D0EF, 0x42595A414E54494E45204D55534943414C2053594D424F4C2041524B54494B4F204E4920),
  (0x1D0F0, 0x42595A414E54494E45204D55534943414C2053594D424F4C204B454E54494D415441204E454F204D45534F20),
  (0x1D0F1, 0x42595A414E54494E45204D55534943414C2053594D424F4C204B454E54494D41204E454F204D45534F20),
  (0x1D0F2, 0x42595A414E54494E45204D55534943414C2053594D424F4C204B454E54494D415441204E454F204B41544F20),
  (0x1D0F3, 0x42595A414E54494E45204D55534943414C2053594D424F4C204B454E54494D41204E454F204B41544F20),
  (0x1D0F4, 0x42595A414E54494E45204D55534943414C2053594D424F4C204B4C41534D41204B41544F20),
  (0x1D0F5, 0x42595A414E54494E45204D55534943414C2053594D424F4C20474F52474F4E204E454F204B41544F20),
  (0x1D100, 0x4D55534943414C2053594D424F4C2053494E474C45204241524C494E4520),
  (0x1D101, 0x4D55534943414C2053594D424F4C20444F55424C45204241524C494E4520),
  (0x1D102, 0x4D55534943414C2053594D424F4C2046494E414C204241524C494E4520),
  (0x1D103, 0x4D55534943414C2053594D424F4C20524556455253452046494E414C204241524C494E4520)]
def names_408 : List (Nat × Nat) := [
  (0x1D104, 0x4D55534943414C2053594D424F4C20444153484544204241524C494E4520),
  (0x1D105, 0x4D55534943414C2053594D424F4C2053484F5254204241524C494E4520),
  (0x1D106, 0x4D55534943414C2053594D424F4C204C45465420524550454154205349474E20),
  (0x1D107, 0x4D55534943414C2053594D424F4C20524947485420524550454154205349474E20),
  (0x1D108, 0x4D55534943414C2053594D424F4C2052455045415420444F545320),
  (0x1D109, 0x4D55534943414C2053594D424F4C2044414C205345474E4F20),
  (0x1D10A, 0x4D55534943414C2053594D424F4C204441204341504F20),
  (0x1D10B, 0x4D55534943414C2053594D424F4C205345474E4F20),
  (0x1D10C, 0x4D55534943414C2053594D424F4C20434F444120),
  (0x1D10D, 0x4D55534943414C2053594D424F4C205245504541544544204649475552452D3120),
  (0x1D10E, 0x4D55534943414C2053594D424F4C205245504541544544204649475552452D3220),
  (0x1D10F, 0x4D55534943414C2053594D424F4C205245504541544544204649475552452D3320),
  (0x1D110, 0x4D55534943414C2053594D424F4C204645524D41544120),
  (0x1D111, 0x4D55534943414C2053594D424F4C204645524D4154412042454C4F5720),
  (0x1D112, 0x4D55534943414C2053594D424F4C20425245415448204D41524B20),
  (0x1D113, 0x4D55534943414C2053594D424F4C204341455355524120),
  (0x1D114, 0x4D55534943414C2053594D424F4C20425241434520),
  (0x1D115, 0x4D55534943414C2053594D424F4C20425241434B455420),
  (0x1D116, 0x4D55534943414C2053594D424F4C204F4E452D4C494E4520535441464620),
  (0x1D117, 0x4D55534943414C2053594D424F4C2054574F2D4C494E4520535441464620),
  (0x1D118, 0x4D55534943414C2053594D424F4C2054485245452D4C494E4520535441464620),
  (0x1D119, 0x4D55534943414C2053594D424F4C20464F55522D4C494E4520535441464620),
  (0x1D11A, 0x4D55534943414C2053594D424F4C20464956452D4C494E4520535441464620),
  (0x1D11B, 0x4D55534943414C2053594D424F4C205349582D4C494E4520535441464620),
  (0x1D11C, 0x4D55534943414C2053594D424F4C205349582D535452494E472046524554424F41524420),
  (0x1D11D, 0x4D55534943414C2053594D424F4C20464F55522D535452494E472046524554424F41524420),
  (0x1D11E, 0x4D55534943414C2053594D424F4C204720434C454620),
  (0x1D11F, 0x4D55534943414C2053594D424F4C204720434C4546204F545441564120414C544120),
  (0x1D120, 0x4D55534943414C2053594D424F4C204720434C4546204F545441564120424153534120),
  (0x1D121, 0x4D55534943414C2053594D424F4C204320434C454620),
  (0x1D122, 0x4D55534943414C2053594D424F4C204620434C454620),
  (0x1D123, 0x4D55534943414C2053594D424F4C204620434C4546204F545441564120414C544120),
  (0x1D124, 0x4D55534943414C2053594D424F4C204620434C4546204F545441564120424153534120),
  (0x1D125, 0x4D55534943414C2053594D424F4C204452554D20434C45462D3120),
  (0x1D126, 0x4D55534943414C2053594D424F4C204452554D20434C45462D3220),
  (0x1D129, 0x4D55534943414C2053594D424F4C204D554C5449504C45204D454153555245205245535420),
  (0x1D12A, 0x4D55534943414C2053594D424F4C20444F55424C4520534841525020),
  (0x1D12B, 0x4D55534943414C2053594D424F4C20444F55424C4520464C415420),
  (0x1D12C, 0x4D55534943414C2053594D424F4C20464C415420555020),
  (0x1D12D, 0x4D55534943414C2053594D424F4C20464C415420444F574E20),
  (0x1D12E, 0x4D55534943414C2053594D424F4C204E41545552414C20555020),
  (0x1D12F, 0x4D55534943414C2053594D424F4C204E41545552414C20444F574E20),
  (0x1D130, 0x4D55534943414C2053594D424F4C20534841525020555020),
  (0x1D131, 0x4D55534943414C2053594D424F4C20534841525020444F574E20),
  (0x1D132, 0x4D55534943414C2053594D424F4C205155415254455220544F4E4520534841525020),
  (0x1D133, 0x4D55534943414C2053594D424F4C205155415254455220544F4E4520464C415420),
  (0x1D134, 0x4D55534943414C2053594D424F4C20434F4D4D4F4E2054494D4520),
  (0x1D135, 0x4D55534943414C2053594D424F4C204355542054494D4520),
  (0x1D136, 0x4D55534943414C2053594D424F4C204F545441564120414C544120),
  (0x1D137, 0x4D55534943414C2053594D424F4C204F545441564120424153534120),
  (0x1D138, 0x4D55534943414C2053594D424F4C205155494E4449434553494D4120414C544120),
  (0x1D139, 0x4D55534943414C2053594D424F4C205155494E4449434553494D4120424153534120),
  (0x1D13A, 0x4D55534943414C2053594D424F4C204D554C5449205245535420),
  (0x1D13B, 0x4D55534943414C2053594D424F4C2057484F4C45205245535420),
  (0x1D13C, 0x4D55534943414C2053594D424F4C2048414C46205245535420),
  (0x1D13D, 0x4D55534943414C2053594D424F4C2051554152544552205245535420),
  (0x1D13E, 0x4D55534943414C2053594D424F4C20454947485448205245535420),
  (0x1D13F, 0x4D55534943414C2053594D424F4C205349585445454E5448205245535420),
  (0x1D140, 0x4D55534943414C2053594D424F4C205448495254592D5345434F4E44205245535420),
  (0x1D141, 0x4D55534943414C2053594D424F4C2053495854592D464F55525448205245535420),
  (0x1D142, 0x4D55534943414C2053594D424F4C204F4E452048554E44524544205457454E54592D454947485448205245535420),
  (0x1D143, 0x4D55534943414C2053594D424F4C2058204E4F54454845414420),
  (0x1D144, 0x4D55534943414C2053594D424F4C20504C5553204E4F54454845414420),
  (0x1D145, 0x4D55534943414C2053594D424F4C20434952434C452058204E4F54454845414420)]
def names_409 : List (Nat × Nat) := [
  (0x1D146, 0x4D55534943414C2053594D424F4C20535155415245204E4F54454845414420574849544520),
  (0x1D147, 0x4D55534943414C2053594D424F4C20535155415245204E4F54454845414420424C41434B20),
  (0x1D148, 0x4D55534943414C2053594D424F4C20545249414E474C45204E4F54454845414420555020574849544520),
  (0x1D149, 0x4D55534943414C2053594D424F4C20545249414E474C45204E4F54454845414420555020424C41434B20),
  (0x1D14A, 0x4D55534943414C2053594D424F4C20545249414E474C45204E4F544548454144204C45465420574849544520),
  (0x1D14B, 0x4D55534943414C2053594D424F4C20545249414E474C45204E4F544548454144204C45465420424C41434B20),
  (0x1D14C, 0x4D55534943414C2053594D424F4C20545249414E474C45204E4F54454845414420524947485420574849544520),
  (0x1D14D, 0x4D55534943414C2053594D424F4C20545249414E474C45204E4F54454845414420524947485420424C41434B20),
  (0x1D14E, 0x4D55534943414C2053594D424F4C20545249414E474C45204E4F54454845414420444F574E20574849544520),
  (0x1D14F, 0x4D55534943414C2053594D424F4C20545249414E474C45204E4F54454845414420444F574E20424C41434B20),
  (0x1D150, 0x4D55534943414C2053594D424F4C20545249414E474C45204E4F54454845414420555020524947485420574849544520),
  (0x1D151, 0x4D55534943414C2053594D424F4C20545249414E474C45204E4F54454845414420555020524947485420424C41434B20),
  (0x1D152, 0x4D55534943414C2053594D424F4C204D4F4F4E204E4F54454845414420574849544520),
  (0x1D153, 0x4D55534943414C2053594D424F4C204D4F4F4E204E4F54454845414420424C41434B20),
  (0x1D154, 0x4D55534943414C2053594D424F4C20545249414E474C452D524F554E44204E4F54454845414420444F574E20574849544520),
  (0x1D155, 0x4D55534943414C2053594D424F4C20545249414E474C452D524F554E44204E4F54454845414420444F574E20424C41434B20),
  (0x1D156, 0x4D55534943414C2053594D424F4C20504152454E544845534953204E4F54454845414420),
  (0x1D157, 0x4D55534943414C2053594D424F4C20564F4944204E4F54454845414420),
  (0x1D158, 0x4D55534943414C2053594D424F4C204E4F54454845414420424C41434B20),
  (0x1D159, 0x4D55534943414C2053594D424F4C204E554C4C204E4F54454845414420),
  (0x1D15A, 0x4D55534943414C2053594D424F4C20434C5553544552204E4F54454845414420574849544520),
  (0x1D15B, 0x4D55534943414C2053594D424F4C20434C5553544552204E4F54454845414420424C41434B20),
  (0x1D15C, 0x4D55534943414C2053594D424F4C20425245564520),
  (0x1D15D, 0x4D55534943414C2053594D424F4C2057484F4C45204E4F544520),
  (0x1D15E, 0x4D55534943414C2053594D424F4C2048414C46204E4F544520),
  (0x1D15F, 0x4D55534943414C2053594D424F4C2051554152544552204E4F544520),
  (0x1D160, 0x4D55534943414C2053594D424F4C20454947485448204E4F544520),
  (0x1D161, 0x4D55534943414C2053594D424F4C205349585445454E5448204E4F544520),
  (0x1D162, 0x4D55534943414C2053594D424F4C205448495254592D5345434F4E44204E4F544520),
  (0x1D163, 0x4D55534943414C2053594D424F4C2053495854592D464F55525448204E4F544520),
  (0x1D164, 0x4D55534943414C2053594D424F4C204F4E452048554E44524544205457454E54592D454947485448204E4F544520),
  (0x1D165, 0x4D55534943414C2053594D424F4C20434F4D42494E494E47205354454D20),
  (0x1D166, 0x4D55534943414C2053594D424F4C20434F4D42494E494E4720535052454348474553414E47205354454D20),
  (0x1D167, 0x4D55534943414C2053594D424F4C20434F4D42494E494E47205452454D4F4C4F2D3120),
  (0x1D168, 0x4D55534943414C2053594D424F4C20434F4D42494E494E47205452454D4F4C4F2D3220),
  (0x1D169, 0x4D55534943414C2053594D424F4C20434F4D42494E494E47205452454D4F4C4F2D3320),
  (0x1D16A, 0x4D55534943414C2053594D424F4C2046494E4745524544205452454D4F4C4F2D3120),
  (0x1D16B, 0x4D55534943414C2053594D424F4C2046494E4745524544205452454D4F4C4F2D3220),
  (0x1D16C, 0x4D55534943414C2053594D424F4C2046494E4745524544205452454D4F4C4F2D3320),
  (0x1D16D, 0x4D55534943414C2053594D424F4C20434F4D42494E494E47204155474D454E544154494F4E20444F5420),
  (0x1D16E, 0x4D55534943414C2053594D424F4C20434F4D42494E494E4720464C41472D3120),
  (0x1D16F, 0x4D55534943414C2053594D424F4C20434F4D42494E494E4720464C41472D3220),
  (0x1D170, 0x4D55534943414C2053594D424F4C20434F4D42494E494E4720464C41472D3320),
  (0x1D171, 0x4D55534943414C2053594D424F4C20434F4D42494E494E4720464C41472D3420),
  (0x1D172, 0x4D55534943414C2053594D424F4C20434F4D42494E494E4720464C41472D3520),
  (0x1D173, 0x4D55534943414C2053594D424F4C20424547494E204245414D20),
  (0x1D174, 0x4D55534943414C2053594D424F4C20454E44204245414D20),
  (0x1D175, 0x4D55534943414C2053594D424F4C20424547494E2054494520),
  (0x1D176, 0x4D55534943414C2053594D424F4C20454E442054494520),
  (0x1D177, 0x4D55534943414C2053594D424F4C20424547494E20534C555220),
  (0x1D178, 0x4D55534943414C2053594D424F4C20454E4420534C555220),
  (0x1D179, 0x4D55534943414C2053594D424F4C20424547494E2050485241534520),
  (0x1D17A, 0x4D55534943414C2053594D424F4C20454E442050485241534520),
  (0x1D17B, 0x4D55534943414C2053594D424F4C20434F4D42494E494E4720414343454E5420),
  (0x1D17C, 0x4D55534943414C2053594D424F4C20434F4D42494E494E4720535441434341544F20),
  (0x1D17D, 0x4D55534943414C2053594D424F4C20434F4D42494E494E472054454E55544F20),
  (0x1D17E, 0x4D55534943414C2053594D424F4C20434F4D42494E494E472053544143434154495353494D4F20),
  (0x1D17F, 0x4D55534943414C2053594D424F4C20434F4D42494E494E47204D41524341544F20),
  (0x1D180, 0x4D55534943414C2053594D424F4C20434F4D42494E494E47204D41524341544F2D535441434341544F20),
  (0x1D181, 0x4D55534943414C2053594D424F4C20434F4D42494E494E4720414343454E542D535441434341544F20),
  (0x1D182, 0x4D55534943414C2053594D424F4C20434F4D42494E494E47204C4F55524520),
  (0x1D183, 0x4D55534943414C2053594D424F4C204152504547474941544F20555020),
  (0x1D184, 0x4D55534943414C2053594D424F4C204152504547474941544F20444F574E20),
  (0x1D185, 0x4D55534943414C2053594D424F4C20434F4D42494E494E4720444F495420)]
def names_410 : List (Nat × Nat) := [
  (0x1D186, 0x4D55534943414C2053594D424F4C20434F4D42494E494E472052495020),
  (0x1D187, 0x4D55534943414C2053594D424F4C20434F4D42494E494E4720464C495020),
  (0x1D188, 0x4D55534943414C2053594D424F4C20434F4D42494E494E4720534D45415220),
  (0x1D189, 0x4D55534943414C2053594D424F4C20434F4D42494E494E472042454E4420),
  (0x1D18A, 0x4D55534943414C2053594D424F4C20434F4D42494E494E4720444F55424C4520544F4E47554520),
  (0x1D18B, 0x4D55534943414C2053594D424F4C20434F4D42494E494E4720545249504C4520544F4E47554520),
  (0x1D18C, 0x4D55534943414C2053594D424F4C2052494E464F525A414E444F20),
  (0x1D18D, 0x4D55534943414C2053594D424F4C2053554249544F20),
  (0x1D18E, 0x4D55534943414C2053594D424F4C205A20),
  (0x1D18F, 0x4D55534943414C2053594D424F4C205049414E4F20),
  (0x1D190, 0x4D55534943414C2053594D424F4C204D455A5A4F20),
  (0x1D191, 0x4D55534943414C2053594D424F4C20464F52544520),
  (0x1D192, 0x4D55534943414C2053594D424F4C204352455343454E444F20),
  (0x1D193, 0x4D55534943414C2053594D424F4C2044454352455343454E444F20),
  (0x1D194, 0x4D55534943414C2053594D424F4C204752414345204E4F544520534C41534820),
  (0x1D195, 0x4D55534943414C2053594D424F4C204752414345204E4F5445204E4F20534C41534820),
  (0x1D196, 0x4D55534943414C2053594D424F4C20545220),
  (0x1D197, 0x4D55534943414C2053594D424F4C205455524E20),
  (0x1D198, 0x4D55534943414C2053594D424F4C20494E564552544544205455524E20),
  (0x1D199, 0x4D55534943414C2053594D424F4C205455524E20534C41534820),
  (0x1D19A, 0x4D55534943414C2053594D424F4C205455524E20555020),
  (0x1D19B, 0x4D55534943414C2053594D424F4C204F524E414D454E54205354524F4B452D3120),
  (0x1D19C, 0x4D55534943414C2053594D424F4C204F524E414D454E54205354524F4B452D3220),
  (0x1D19D, 0x4D55534943414C2053594D424F4C204F524E414D454E54205354524F4B452D3320),
  (0x1D19E, 0x4D55534943414C2053594D424F4C204F524E414D454E54205354524F4B452D3420),
  (0x1D19F, 0x4D55534943414C2053594D424F4C204F524E414D454E54205354524F4B452D3520),
  (0x1D1A0, 0x4D55534943414C2053594D424F4C204F524E414D454E54205354524F4B452D3620),
  (0x1D1A1, 0x4D55534943414C2053594D424F4C204F524E414D454E54205354524F4B452D3720),
  (0x1D1A2, 0x4D55534943414C2053594D424F4C204F524E414D454E54205354524F4B452D3820),
  (0x1D1A3, 0x4D55534943414C2053594D424F4C204F524E414D454E54205354524F4B452D3920),
  (0x1D1A4, 0x4D55534943414C2053594D424F4C204F524E414D454E54205354524F4B452D313020),
  (0x1D1A5, 0x4D55534943414C2053594D424F4C204F524E414D454E54205354524F4B452D313120),
  (0x1D1A6, 0x4D55534943414C2053594D424F4C2048415550545354494D4D4520),
  (0x1D1A7, 0x4D55534943414C2053594D424F4C204E4542454E5354494D4D4520),
  (0x1D1A8, 0x4D55534943414C2053594D424F4C20454E44204F46205354494D4D4520),
  (0x1D1A9, 0x4D55534943414C2053594D424F4C2044454752454520534C41534820),
  (0x1D1AA, 0x4D55534943414C2053594D424F4C20434F4D42494E494E4720444F574E20424F5720),
  (0x1D1AB, 0x4D55534943414C2053594D424F4C20434F4D42494E494E4720555020424F5720),
  (0x1D1AC, 0x4D55534943414C2053594D424F4C20434F4D42494E494E47204841524D4F4E494320),
  (0x1D1AD, 0x4D55534943414C2053594D424F4C20434F4D42494E494E4720534E41502050495A5A494341544F20),
  (0x1D1AE, 0x4D55534943414C2053594D424F4C20504544414C204D41524B20),
  (0x1D1AF, 0x4D55534943414C2053594D424F4C20504544414C205550204D41524B20),
  (0x1D1B0, 0x4D55534943414C2053594D424F4C2048414C4620504544414C204D41524B20),
  (0x1D1B1, 0x4D55534943414C2053594D424F4C20474C495353414E444F20555020),
  (0x1D1B2, 0x4D55534943414C2053594D424F4C20474C495353414E444F20444F574E20),
  (0x1D1B3, 0x4D55534943414C2053594D424F4C20574954482046494E4745524E41494C5320),
  (0x1D1B4, 0x4D55534943414C2053594D424F4C2044414D5020),
  (0x1D1B5, 0x4D55534943414C2053594D424F4C2044414D5020414C4C20),
  (0x1D1B6, 0x4D55534943414C2053594D424F4C204D4158494D4120),
  (0x1D1B7, 0x4D55534943414C2053594D424F4C204C4F4E474120),
  (0x1D1B8, 0x4D55534943414C2053594D424F4C2042524556495320),
  (0x1D1B9, 0x4D55534943414C2053594D424F4C2053454D4942524556495320574849544520),
  (0x1D1BA, 0x4D55534943414C2053594D424F4C2053454D4942524556495320424C41434B20),
  (0x1D1BB, 0x4D55534943414C2053594D424F4C204D494E494D4120),
  (0x1D1BC, 0x4D55534943414C2053594D424F4C204D494E494D4120424C41434B20),
  (0x1D1BD, 0x4D55534943414C2053594D424F4C2053454D494D494E494D4120574849544520),
  (0x1D1BE, 0x4D55534943414C2053594D424F4C2053454D494D494E494D4120424C41434B20),
  (0x1D1BF, 0x4D55534943414C2053594D424F4C204655534120574849544520),
  (0x1D1C0, 0x4D55534943414C2053594D424F4C204655534120424C41434B20),
  (0x1D1C1, 0x4D55534943414C2053594D424F4C204C4F4E4741205045524645435441205245535420),
  (0x1D1C2, 0x4D55534943414C2053594D424F4C204C4F4E474120494D5045524645435441205245535420),
  (0x1D1C3, 0x4D55534943414C2053594D424F4C20425245564953205245535420),
  (0x1D1C4, 0x4D55534943414C2053594D424F4C2053454D49425245564953205245535420),
  (0x1D1C5, 0x4D55534943414C2053594D424F4C204D494E494D41205245535420)]
def names_411 : List (Nat × Nat) := [
  (0x1D1C6, 0x4D55534943414C2053594D424F4C2053454D494D494E494D41205245535420),
  (0x1D1C7, 0x4D55534943414C2053594D424F4C2054454D5055532050455246454354554D2043554D2050524F4C4154494F4E4520504552464543544120),
  (0x1D1C8, 0x4D55534943414C2053594D424F4C2054454D5055532050455246454354554D2043554D2050524F4C4154494F4E4520494D504552464543544120),
  (0x1D1C9, 0x4D55534943414C2053594D424F4C2054454D5055532050455246454354554D2043554D2050524F4C4154494F4E452050455246454354412044494D494E5554494F4E2D3120),
  (0x1D1CA, 0x4D55534943414C2053594D424F4C2054454D50555320494D50455246454354554D2043554D2050524F4C4154494F4E4520504552464543544120),
  (0x1D1CB, 0x4D55534943414C2053594D424F4C2054454D50555320494D50455246454354554D2043554D2050524F4C4154494F4E4520494D504552464543544120),
  (0x1D1CC, 0x4D55534943414C2053594D424F4C2054454D50555320494D50455246454354554D2043554D2050524F4C4154494F4E4520494D50455246454354412044494D494E5554494F4E2D3120),
  (0x1D1CD, 0x4D55534943414C2053594D424F4C2054454D50555320494D50455246454354554D2043554D2050524F4C4154494F4E4520494D50455246454354412044494D494E5554494F4E2D3220),
  (0x1D1CE, 0x4D55534943414C2053594D424F4C2054454D50555320494D50455246454354554D2043554D2050524F4C4154494F4E4520494D50455246454354412044494D494E5554494F4E2D3320),
  (0x1D1CF, 0x4D55534943414C2053594D424F4C2043524F495820),
  (0x1D1D0, 0x4D55534943414C2053594D424F4C20475245474F5249414E204320434C454620),
  (0x1D1D1, 0x4D55534943414C2053594D424F4C20475245474F5249414E204620434C454620),
  (0x1D1D2, 0x4D55534943414C2053594D424F4C20535155415245204220),
  (0x1D1D3, 0x4D55534943414C2053594D424F4C20564952474120),
  (0x1D1D4, 0x4D55534943414C2053594D424F4C20504F444154555320),
  (0x1D1D5, 0x4D55534943414C2053594D424F4C20434C4956495320),
  (0x1D1D6, 0x4D55534943414C2053594D424F4C205343414E444943555320),
  (0x1D1D7, 0x4D55534943414C2053594D424F4C20434C494D4143555320),
  (0x1D1D8, 0x4D55534943414C2053594D424F4C20544F5243554C555320),
  (0x1D1D9, 0x4D55534943414C2053594D424F4C20504F5252454354555320),
  (0x1D1DA, 0x4D55534943414C2053594D424F4C20504F5252454354555320464C4558555320),
  (0x1D1DB, 0x4D55534943414C2053594D424F4C205343414E444943555320464C4558555320),
  (0x1D1DC, 0x4D55534943414C2053594D424F4C20544F5243554C5553205245535550494E555320),
  (0x1D1DD, 0x4D55534943414C2053594D424F4C205045532053554250554E4354495320),
  (0x1D1DE, 0x4D55534943414C2053594D424F4C204B494556414E204320434C454620),
  (0x1D1DF, 0x4D55534943414C2053594D424F4C204B494556414E20454E44204F4620504945434520),
  (0x1D1E0, 0x4D55534943414C2053594D424F4C204B494556414E2046494E414C204E4F544520),
  (0x1D1E1, 0x4D55534943414C2053594D424F4C204B494556414E2052454349544154495645204D41524B20),
  (0x1D1E2, 0x4D55534943414C2053594D424F4C204B494556414E2057484F4C45204E4F544520),
  (0x1D1E3, 0x4D55534943414C2053594D424F4C204B494556414E2048414C46204E4F544520),
  (0x1D1E4, 0x4D55534943414C2053594D424F4C204B494556414E2051554152544552204E4F5445205354454D20444F574E20),
  (0x1D1E5, 0x4D55534943414C2053594D424F4C204B494556414E2051554152544552204E4F5445205354454D20555020),
  (0x1D1E6, 0x4D55534943414C2053594D424F4C204B494556414E20454947485448204E4F5445205354454D20444F574E20),
  (0x1D1E7, 0x4D55534943414C2053594D424F4C204B494556414E20454947485448204E4F5445205354454D20555020),
  (0x1D1E8, 0x4D55534943414C2053594D424F4C204B494556414E20464C4154205349474E20),
  (0x1D200, 0x475245454B20564F43414C204E4F544154494F4E2053594D424F4C2D3120),
  (0x1D201, 0x475245454B20564F43414C204E4F544154494F4E2053594D424F4C2D3220),
  (0x1D202, 0x475245454B20564F43414C204E4F544154494F4E2053594D424F4C2D3320),
  (0x1D203, 0x475245454B20564F43414C204E4F544154494F4E2053594D424F4C2D3420),
  (0x1D204, 0x475245454B20564F43414C204E4F544154494F4E2053594D424F4C2D3520),
  (0x1D205, 0x475245454B20564F43414C204E4F544154494F4E2053594D424F4C2D3620),
  (0x1D206, 0x475245454B20564F43414C204E4F544154494F4E2053594D424F4C2D3720),
  (0x1D207, 0x475245454B20564F43414C204E4F544154494F4E2053594D424F4C2D3820),
  (0x1D208, 0x475245454B20564F43414C204E4F544154494F4E2053594D424F4C2D3920),
  (0x1D209, 0x475245454B20564F43414C204E4F544154494F4E2053594D424F4C2D313020),
  (0x1D20A, 0x475245454B20564F43414C204E4F544154494F4E2053594D424F4C2D313120),
  (0x1D20B, 0x475245454B20564F43414C204E4F544154494F4E2053594D424F4C2D313220),
  (0x1D20C, 0x475245454B20564F43414C204E4F544154494F4E2053594D424F4C2D313320),
  (0x1D20D, 0x475245454B20564F43414C204E4F544154494F4E2053594D424F4C2D313420),
  (0x1D20E, 0x475245454B20564F43414C204E4F544154494F4E2053594D424F4C2D313520),
  (0x1D20F, 0x475245454B20564F43414C204E4F544154494F4E2053594D424F4C2D313620),
  (0x1D210, 0x475245454B20564F43414C204E4F544154494F4E2053594D424F4C2D313720),
  (0x1D211, 0x475245454B20564F43414C204E4F544154494F4E2053594D424F4C2D313820),
  (0x1D212, 0x475245454B20564F43414C204E4F544154494F4E2053594D424F4C2D313920),
  (0x1D213, 0x475245454B20564F43414C204E4F544154494F4E2053594D424F4C2D323020),
  (0x1D214, 0x475245454B20564F43414C204E4F544154494F4E2053594D424F4C2D323120),
  (0x1D215, 0x475245454B20564F43414C204E4F544154494F4E2053594D424F4C2D323220),
  (0x1D216, 0x475245454B20564F43414C204E4F544154494F4E2053594D424F4C2D323320),
  (0x1D217, 0x475245454B20564F43414C204E4F544154494F4E2053594D424F4C2D323420),
  (0x1D218, 0x475245454B20564F43414C204E4F544154494F4E2053594D424F4C2D353020),
  (0x1D219, 0x475245454B20564F43414C204E4F544154494F4E2053594D424F4C2D353120),
  (0x1D21A, 0x475245454B20564F43414C204E4F544154494F4E2053594D424F4C2D353220),
  (0x1D21B, 0x475245454B20564F43414C204E4F544154494F4E2053594D424F4C2D353320),
  (0x1D21C, 0x475245454B20564F43414C204E4F544154494F4E2053594D424F4C2D353420)]
def names_412 : List (Nat × Nat) := [
  (0x1D21D, 0x475245454B20494E535452554D454E54414C204E4F544154494F4E2053594D424F4C2D3120),
  (0x1D21E, 0x475245454B20494E535452554D454E54414C204E4F544154494F4E2053594D424F4C2D3220),
  (0x1D21F, 0x475245454B20494E535452554D454E54414C204E4F544154494F4E2053594D424F4C2D3420),
  (0x1D220, 0x475245454B20494E535452554D454E54414C204E4F544154494F4E2053594D424F4C2D3520),
  (0x1D221, 0x475245454B20494E535452554D454E54414C204E4F544154494F4E2053594D424F4C2D3720),
  (0x1D222, 0x475245454B20494E535452554D454E54414C204E4F544154494F4E2053594D424F4C2D3820),
  (0x1D223, 0x475245454B20494E535452554D454E54414C204E4F544154494F4E2053594D424F4C2D313120),
  (0x1D224, 0x475245454B20494E535452554D454E54414C204E4F544154494F4E2053594D424F4C2D313220),
  (0x1D225, 0x475245454B20494E535452554D454E54414C204E4F544154494F4E2053594D424F4C2D313320),
  (0x1D226, 0x475245454B20494E535452554D454E54414C204E4F544154494F4E2053594D424F4C2D313420),
  (0x1D227, 0x475245454B20494E535452554D454E54414C204E4F544154494F4E2053594D424F4C2D313720),
  (0x1D228, 0x475245454B20494E535452554D454E54414C204E4F544154494F4E2053594D424F4C2D313820),
  (0x1D229, 0x475245454B20494E535452554D454E54414C204E4F544154494F4E2053594D424F4C2D313920),
  (0x1D22A, 0x475245454B20494E535452554D454E54414C204E4F544154494F4E2053594D424F4C2D323320),
  (0x1D22B, 0x475245454B20494E535452554D454E54414C204E4F544154494F4E2053594D424F4C2D323420),
  (0x1D22C, 0x475245454B20494E535452554D454E54414C204E4F544154494F4E2053594D424F4C2D323520),
  (0x1D22D, 0x475245454B20494E535452554D454E54414C204E4F544154494F4E2053594D424F4C2D323620),
  (0x1D22E, 0x475245454B20494E535452554D454E54414C204E4F544154494F4E2053594D424F4C2D323720),
  (0x1D22F, 0x475245454B20494E535452554D454E54414C204E4F544154494F4E2053594D424F4C2D323920),
  (0x1D230, 0x475245454B20494E535452554D454E54414C204E4F544154494F4E2053594D424F4C2D333020),
  (0x1D231, 0x475245454B20494E535452554D454E54414C204E4F544154494F4E2053594D424F4C2D333220),
  (0x1D232, 0x475245454B20494E535452554D454E54414C204E4F544154494F4E2053594D424F4C2D333620),
  (0x1D233, 0x475245454B20494E535452554D454E54414C204E4F544154494F4E2053594D424F4C2D333720),
  (0x1D234, 0x475245454B20494E535452554D454E54414C204E4F544154494F4E2053594D424F4C2D333820),
  (0x1D235, 0x475245454B20494E535452554D454E54414C204E4F544154494F4E2053594D424F4C2D333920),
  (0x1D236, 0x475245454B20494E535452554D454E54414C204E4F544154494F4E2053594D424F4C2D343020),
  (0x1D237, 0x475245454B20494E535452554D454E54414C204E4F544154494F4E2053594D424F4C2D343220),
  (0x1D238, 0x475245454B20494E535452554D454E54414C204E4F544154494F4E2053594D424F4C2D343320),
  (0x1D239, 0x475245454B20494E535452554D454E54414C204E4F544154494F4E2053594D424F4C2D343520),
  (0x1D23A, 0x475245454B20494E535452554D454E54414C204E4F544154494F4E2053594D424F4C2D343720),
  (0x1D23B, 0x475245454B20494E535452554D454E54414C204E4F544154494F4E2053594D424F4C2D343820),
  (0x1D23C, 0x475245454B20494E535452554D454E54414C204E4F544154494F4E2053594D424F4C2D343920),
  (0x1D23D, 0x475245454B20494E535452554D454E54414C204E4F544154494F4E2053594D424F4C2D353020),
  (0x1D23E, 0x475245454B20494E535452554D454E54414C204E4F544154494F4E2053594D424F4C2D353120),
  (0x1D23F, 0x475245454B20494E535452554D454E54414C204E4F544154494F4E2053594D424F4C2D353220),
  (0x1D240, 0x475245454B20494E535452554D454E54414C204E4F544154494F4E2053594D424F4C2D353320),
  (0x1D241, 0x475245454B20494E535452554D454E54414C204E4F544154494F4E2053594D424F4C2D353420),
  (0x1D242, 0x434F4D42494E494E4720475245454B204D55534943414C2054524953454D4520),
  (0x1D243, 0x434F4D42494E494E4720475245454B204D55534943414C20544554524153454D4520),
  (0x1D244, 0x434F4D42494E494E4720475245454B204D55534943414C2050454E544153454D4520),
  (0x1D245, 0x475245454B204D55534943414C204C45494D4D4120),
  (0x1D300, 0x4D4F4E4F4752414D20464F5220454152544820),
  (0x1D301, 0x44494752414D20464F522048454156454E4C5920454152544820),
  (0x1D302, 0x44494752414D20464F522048554D414E20454152544820),
  (0x1D303, 0x44494752414D20464F522045415254484C592048454156454E20),
  (0x1D304, 0x44494752414D20464F522045415254484C592048554D414E20),
  (0x1D305, 0x44494752414D20464F5220454152544820),
  (0x1D306, 0x54455452414752414D20464F522043454E54524520),
  (0x1D307, 0x54455452414752414D20464F522046554C4C20434952434C4520),
  (0x1D308, 0x54455452414752414D20464F52204D4952454420),
  (0x1D309, 0x54455452414752414D20464F52204241525249455220),
  (0x1D30A, 0x54455452414752414D20464F52204B454550494E4720534D414C4C20),
  (0x1D30B, 0x54455452414752414D20464F5220434F4E545241524945545920),
  (0x1D30C, 0x54455452414752414D20464F5220415343454E5420),
  (0x1D30D, 0x54455452414752414D20464F52204F50504F534954494F4E20),
  (0x1D30E, 0x54455452414752414D20464F52204252414E4348494E47204F555420),
  (0x1D30F, 0x54455452414752414D20464F52204445464543544956454E455353204F5220444953544F5254494F4E20),
  (0x1D310, 0x54455452414752414D20464F5220444956455247454E434520),
  (0x1D311, 0x54455452414752414D20464F5220594F55544846554C4E45535320),
  (0x1D312, 0x54455452414752414D20464F5220494E43524541534520),
  (0x1D313, 0x54455452414752414D20464F522050454E4554524154494F4E20),
  (0x1D314, 0x54455452414752414D20464F5220524541434820),
  (0x1D315, 0x54455452414752414D20464F5220434F4E5441435420),
  (0x1D316, 0x54455452414752414D20464F5220484F4C44494E47204241434B20)]
def names_413 : List (Nat × Nat) := [
  (0x1D317, 0x54455452414752414D20464F522057414954494E4720),
  (0x1D318, 0x54455452414752414D20464F5220464F4C4C4F57494E4720),
  (0x1D319, 0x54455452414752414D20464F5220414456414E434520),
  (0x1D31A, 0x54455452414752414D20464F522052454C4541534520),
  (0x1D31B, 0x54455452414752414D20464F5220524553495354414E434520),
  (0x1D31C, 0x54455452414752414D20464F52204541534520),
  (0x1D31D, 0x54455452414752414D20464F52204A4F5920),
  (0x1D31E, 0x54455452414752414D20464F5220434F4E54454E54494F4E20),
  (0x1D31F, 0x54455452414752414D20464F5220454E444541564F555220),
  (0x1D320, 0x54455452414752414D20464F522044555449455320),
  (0x1D321, 0x54455452414752414D20464F52204348414E474520),
  (0x1D322, 0x54455452414752414D20464F522044454349534956454E45535320),
  (0x1D323, 0x54455452414752414D20464F5220424F4C44205245534F4C5554494F4E20),
  (0x1D324, 0x54455452414752414D20464F52205041434B494E4720),
  (0x1D325, 0x54455452414752414D20464F52204C4547494F4E20),
  (0x1D326, 0x54455452414752414D20464F5220434C4F53454E45535320),
  (0x1D327, 0x54455452414752414D20464F52204B494E5348495020),
  (0x1D328, 0x54455452414752414D20464F5220474154484552494E4720),
  (0x1D329, 0x54455452414752414D20464F5220535452454E47544820),
  (0x1D32A, 0x54455452414752414D20464F522050555249545920),
  (0x1D32B, 0x54455452414752414D20464F522046554C4C4E45535320),
  (0x1D32C, 0x54455452414752414D20464F52205245534944454E434520),
  (0x1D32D, 0x54455452414752414D20464F52204C4157204F52204D4F44454C20),
  (0x1D32E, 0x54455452414752414D20464F5220524553504F4E534520),
  (0x1D32F, 0x54455452414752414D20464F5220474F494E4720544F204D45455420),
  (0x1D330, 0x54455452414752414D20464F5220454E434F554E5445525320),
  (0x1D331, 0x54455452414752414D20464F522053544F564520),
  (0x1D332, 0x54455452414752414D20464F522047524541544E45535320),
  (0x1D333, 0x54455452414752414D20464F5220454E4C415247454D454E5420),
  (0x1D334, 0x54455452414752414D20464F52205041545445524E20),
  (0x1D335, 0x54455452414752414D20464F522052495455414C20),
  (0x1D336, 0x54455452414752414D20464F5220464C4947485420),
  (0x1D337, 0x54455452414752414D20464F5220564153544E455353204F522057415354494E4720),
  (0x1D338, 0x54455452414752414D20464F5220434F4E5354414E435920),
  (0x1D339, 0x54455452414752414D20464F52204D45415355524520),
  (0x1D33A, 0x54455452414752414D20464F5220455445524E49545920),
  (0x1D33B, 0x54455452414752414D20464F5220554E49545920),
  (0x1D33C, 0x54455452414752414D20464F522044494D494E4953484D454E5420),
  (0x1D33D, 0x54455452414752414D20464F5220434C4F534544204D4F55544820),
  (0x1D33E, 0x54455452414752414D20464F5220475541524445444E45535320),
  (0x1D33F, 0x54455452414752414D20464F5220474154484552494E4720494E20),
  (0x1D340, 0x54455452414752414D20464F52204D415353494E4720),
  (0x1D341, 0x54455452414752414D20464F5220414343554D554C4154494F4E20),
  (0x1D342, 0x54455452414752414D20464F5220454D42454C4C4953484D454E5420),
  (0x1D343, 0x54455452414752414D20464F5220444F55425420),
  (0x1D344, 0x54455452414752414D20464F5220574154434820),
  (0x1D345, 0x54455452414752414D20464F522053494E4B494E4720),
  (0x1D346, 0x54455452414752414D20464F5220494E4E455220),
  (0x1D347, 0x54455452414752414D20464F522044455041525455524520),
  (0x1D348, 0x54455452414752414D20464F52204441524B454E494E4720),
  (0x1D349, 0x54455452414752414D20464F522044494D4D494E4720),
  (0x1D34A, 0x54455452414752414D20464F522045584841555354494F4E20),
  (0x1D34B, 0x54455452414752414D20464F52205345564552414E434520),
  (0x1D34C, 0x54455452414752414D20464F522053544F505041474520),
  (0x1D34D, 0x54455452414752414D20464F5220484152444E45535320),
  (0x1D34E, 0x54455452414752414D20464F5220434F4D504C4554494F4E20),
  (0x1D34F, 0x54455452414752414D20464F5220434C4F5355524520),
  (0x1D350, 0x54455452414752414D20464F52204641494C55524520),
  (0x1D351, 0x54455452414752414D20464F52204147475241564154494F4E20),
  (0x1D352, 0x54455452414752414D20464F5220434F4D504C49414E434520),
  (0x1D353, 0x54455452414752414D20464F52204F4E2054484520564552474520),
  (0x1D354, 0x54455452414752414D20464F5220444946464943554C5449455320),
  (0x1D355, 0x54455452414752414D20464F52204C41424F5552494E4720),
  (0x1D356, 0x54455452414752414D20464F5220464F53544552494E4720)]
def names_414 : List (Nat × Nat) := [
  (0x1D360, 0x434F554E54494E4720524F4420554E4954204449474954204F4E4520),
  (0x1D361, 0x434F554E54494E4720524F4420554E49542044494749542054574F20),
  (0x1D362, 0x434F554E54494E4720524F4420554E495420444947495420544852454520),
  (0x1D363, 0x434F554E54494E4720524F4420554E495420444947495420464F555220),
  (0x1D364, 0x434F554E54494E4720524F4420554E4954204449474954204649564520),
  (0x1D365, 0x434F554E54494E4720524F4420554E49542044494749542053495820),
  (0x1D366, 0x434F554E54494E4720524F4420554E495420444947495420534556454E20),
  (0x1D367, 0x434F554E54494E4720524F4420554E495420444947495420454947485420),
  (0x1D368, 0x434F554E54494E4720524F4420554E4954204449474954204E494E4520),
  (0x1D369, 0x434F554E54494E4720524F442054454E53204449474954204F4E4520),
  (0x1D36A, 0x434F554E54494E4720524F442054454E532044494749542054574F20),
  (0x1D36B, 0x434F554E54494E4720524F442054454E5320444947495420544852454520),
  (0x1D36C, 0x434F554E54494E4720524F442054454E5320444947495420464F555220),
  (0x1D36D, 0x434F554E54494E4720524F442054454E53204449474954204649564520),
  (0x1D36E, 0x434F554E54494E4720524F442054454E532044494749542053495820),
  (0x1D36F, 0x434F554E54494E4720524F442054454E5320444947495420534556454E20),
  (0x1D370, 0x434F554E54494E4720524F442054454E5320444947495420454947485420),
  (0x1D371, 0x434F554E54494E4720524F442054454E53204449474954204E494E4520),
  (0x1D400, 0x4D415448454D41544943414C20424F4C44204341504954414C204120),
  (0x1D401, 0x4D415448454D41544943414C20424F4C44204341504954414C204220),
  (0x1D402, 0x4D415448454D41544943414C20424F4C44204341504954414C204320),
  (0x1D403, 0x4D415448454D41544943414C20424F4C44204341504954414C204420),
  (0x1D404, 0x4D415448454D41544943414C20424F4C44204341504954414C204520),
  (0x1D405, 0x4D415448454D41544943414C20424F4C44204341504954414C204620),
  (0x1D406, 0x4D415448454D41544943414C20424F4C44204341504954414C204720),
  (0x1D407, 0x4D415448454D41544943414C20424F4C44204341504954414C204820),
  (0x1D408, 0x4D415448454D41544943414C20424F4C44204341504954414C204920),
  (0x1D409, 0x4D415448454D41544943414C20424F4C44204341504954414C204A20),
  (0x1D40A, 0x4D415448454D41544943414C20424F4C44204341504954414C204B20),
  (0x1D40B, 0x4D415448454D41544943414C20424F4C44204341504954414C204C20),
  (0x1D40C, 0x4D415448454D41544943414C20424F4C44204341504954414C204D20),
  (0x1D40D, 0x4D415448454D41544943414C20424F4C44204341504954414C204E20),
  (0x1D40E, 0x4D415448454D41544943414C20424F4C44204341504954414C204F20),
  (0x1D40F, 0x4D415448454D41544943414C20424F4C44204341504954414C205020),
  (0x1D410, 0x4D415448454D41544943414C20424F4C44204341504954414C205120),
  (0x1D411, 0x4D415448454D41544943414C20424F4C44204341504954414C205220),
  (0x1D412, 0x4D415448454D41544943414C20424F4C44204341504954414C205320),
  (0x1D413, 0x4D415448454D41544943414C20424F4C44204341504954414C205420),
  (0x1D414, 0x4D415448454D41544943414C20424F4C44204341504954414C205520),
  (0x1D415, 0x4D415448454D41544943414C20424F4C44204341504954414C205620),
  (0x1D416, 0x4D415448454D41544943414C20424F4C44204341504954414C205720),
  (0x1D417, 0x4D415448454D41544943414C20424F4C44204341504954414C205820),
  (0x1D418, 0x4D415448454D41544943414C20424F4C44204341504954414C205920),
  (0x1D419, 0x4D415448454D41544943414C20424F4C44204341504954414C205A20),
  (0x1D41A, 0x4D415448454D41544943414C20424F4C4420534D414C4C204120),
  (0x1D41B, 0x4D415448454D41544943414C20424F4C4420534D414C4C204220),
  (0x1D41C, 0x4D415448454D41544943414C20424F4C4420534D414C4C204320),
  (0x1D41D, 0x4D415448454D41544943414C20424F4C4420534D414C4C204420),
  (0x1D41E, 0x4D415448454D41544943414C20424F4C4420534D414C4C204520),
  (0x1D41F, 0x4D415448454D41544943414C20424F4C4420534D414C4C204620),
  (0x1D420, 0x4D415448454D41544943414C20424F4C4420534D414C4C204720),
  (0x1D421, 0x4D415448454D41544943414C20424F4C4420534D414C4C204820),
  (0x1D422, 0x4D415448454D41544943414C20424F4C4420534D414C4C204920),
  (0x1D423, 0x4D415448454D41544943414C20424F4C4420534D414C4C204A20),
  (0x1D424, 0x4D415448454D41544943414C20424F4C4420534D414C4C204B20),
  (0x1D425, 0x4D415448454D41544943414C20424F4C4420534D414C4C204C20),
  (0x1D426, 0x4D415448454D41544943414C20424F4C4420534D414C4C204D20),
  (0x1D427, 0x4D415448454D41544943414C20424F4C4420534D414C4C204E20),
  (0x1D428, 0x4D415448454D41544943414C20424F4C4420534D414C4C204F20),
  (0x1D429, 0x4D415448454D41544943414C20424F4C4420534D414C4C205020),
  (0x1D42A, 0x4D415448454D41544943414C20424F4C4420534D414C4C205120),
  (0x1D42B, 0x4D415448454D41544943414C20424F4C4420534D414C4C205220),
  (0x1D42C, 0x4D415448454D41544943414C20424F4C4420534D414C4C205320),
  (0x1D42D, 0x4D415448454D41544943414C20424F4C4420534D414C4C205420)]
def names_415 : List (Nat × Nat) := [
  (0x1D42E, 0x4D415448454D41544943414C20424F4C4420534D414C4C205520),
  (0x1D42F, 0x4D415448454D41544943414C20424F4C4420534D414C4C205620),
  (0x1D430, 0x4D415448454D41544943414C20424F4C4420534D414C4C205720),
  (0x1D431, 0x4D415448454D41544943414C20424F4C4420534D414C4C205820),
  (0x1D432, 0x4D415448454D41544943414C20424F4C4420534D414C4C205920),
  (0x1D433, 0x4D415448454D41544943414C20424F4C4420534D414C4C205A20),
  (0x1D434, 0x4D415448454D41544943414C204954414C4943204341504954414C204120),
  (0x1D435, 0x4D415448454D41544943414C204954414C4943204341504954414C204220),
  (0x1D436, 0x4D415448454D41544943414C204954414C4943204341504954414C204320),
  (0x1D437, 0x4D415448454D41544943414C204954414C4943204341504954414C204420),
  (0x1D438, 0x4D415448454D41544943414C204954414C4943204341504954414C204520),
  (0x1D439, 0x4D415448454D41544943414C204954414C4943204341504954414C204620),
  (0x1D43A, 0x4D415448454D41544943414C204954414C4943204341504954414C204720),
  (0x1D43B, 0x4D415448454D41544943414C204954414C4943204341504954414C204820),
  (0x1D43C, 0x4D415448454D41544943414C204954414C4943204341504954414C204920),
  (0x1D43D, 0x4D415448454D41544943414C204954414C4943204341504954414C204A20),
  (0x1D43E, 0x4D415448454D41544943414C204954414C4943204341504954414C204B20),
  (0x1D43F, 0x4D415448454D41544943414C204954414C4943204341504954414C204C20),
  (0x1D440, 0x4D415448454D41544943414C204954414C4943204341504954414C204D20),
  (0x1D441, 0x4D415448454D41544943414C204954414C4943204341504954414C204E20),
  (0x1D442, 0x4D415448454D41544943414C204954414C4943204341504954414C204F20),
  (0x1D443, 0x4D415448454D41544943414C204954414C4943204341504954414C205020),
  (0x1D444, 0x4D415448454D41544943414C204954414C4943204341504954414C205120),
  (0x1D445, 0x4D415448454D41544943414C204954414C4943204341504954414C205220),
  (0x1D446, 0x4D415448454D41544943414C204954414C4943204341504954414C205320),
  (0x1D447, 0x4D415448454D41544943414C204954414C4943204341504954414C205420),
  (0x1D448, 0x4D415448454D41544943414C204954414C4943204341504954414C205520),
  (0x1D449, 0x4D415448454D41544943414C204954414C4943204341504954414C205620),
  (0x1D44A, 0x4D415448454D41544943414C204954414C4943204341504954414C205720),
  (0x1D44B, 0x4D415448454D41544943414C204954414C4943204341504954414C205820),
  (0x1D44C, 0x4D415448454D41544943414C204954414C4943204341504954414C205920),
  (0x1D44D, 0x4D415448454D41544943414C204954414C4943204341504954414C205A20),
  (0x1D44E, 0x4D415448454D41544943414C204954414C494320534D414C4C204120),
  (0x1D44F, 0x4D415448454D41544943414C204954414C494320534D414C4C204220),
  (0x1D450, 0x4D415448454D41544943414C204954414C494320534D414C4C204320),
  (0x1D451, 0x4D415448454D41544943414C204954414C494320534D414C4C204420),
  (0x1D452, 0x4D415448454D41544943414C204954414C494320534D414C4C204520),
  (0x1D453, 0x4D415448454D41544943414C204954414C494320534D414C4C204620),
  (0x1D454, 0x4D415448454D41544943414C204954414C494320534D414C4C204720),
  (0x1D456, 0x4D415448454D41544943414C204954414C494320534D414C4C204920),
  (0x1D457, 0x4D415448454D41544943414C204954414C494320534D414C4C204A20),
  (0x1D458, 0x4D415448454D41544943414C204954414C494320534D414C4C204B20),
  (0x1D459, 0x4D415448454D41544943414C204954414C494320534D414C4C204C20),
  (0x1D45A, 0x4D415448454D41544943414C204954414C494320534D414C4C204D20),
  (0x1D45B, 0x4D415448454D41544943414C204954414C494320534D414C4C204E20),
  (0x1D45C, 0x4D415448454D41544943414C204954414C494320534D414C4C204F20),
  (0x1D45D, 0x4D415448454D41544943414C204954414C494320534D414C4C205020),
  (0x1D45E, 0x4D415448454D41544943414C204954414C494320534D414C4C205120),
  (0x1D45F, 0x4D415448454D41544943414C204954414C494320534D414C4C205220),
  (0x1D460, 0x4D415448454D41544943414C204954414C494320534D414C4C205320),
  (0x1D461, 0x4D415448454D41544943414C204954414C494320534D414C4C205420),
  (0x1D462, 0x4D415448454D41544943414C204954414C494320534D414C4C205520),
  (0x1D463, 0x4D415448454D41544943414C204954414C494320534D414C4C205620),
  (0x1D464, 0x4D415448454D41544943414C204954414C494320534D414C4C205720),
  (0x1D465, 0x4D415448454D41544943414C204954414C494320534D414C4C205820),
  (0x1D466, 0x4D415448454D41544943414C204954414C494320534D414C4C205920),
  (0x1D467, 0x4D415448454D41544943414C204954414C494320534D414C4C205A20),
  (0x1D468, 0x4D415448454D41544943414C20424F4C44204954414C4943204341504954414C204120),
  (0x1D469, 0x4D415448454D41544943414C20424F4C44204954414C4943204341504954414C204220),
  (0x1D46A, 0x4D415448454D41544943414C20424F4C44204954414C4943204341504954414C204320),
  (0x1D46B, 0x4D415448454D41544943414C20424F4C44204954414C4943204341504954414C204420),
  (0x1D46C, 0x4D415448454D41544943414C20424F4C44204954414C4943204341504954414C204520),
  (0x1D46D, 0x4D415448454D41544943414C20424F4C44204954414C4943204341504954414C204620),
  (0x1D46E, 0x4D415448454D41544943414C20424F4C44204954414C4943204341504954414C204720)]
def names_416 : List (Nat × Nat) := [
  (0x1D46F, 0x4D415448454D41544943414C20424F4C44204954414C4943204341504954414C204820),
  (0x1D470, 0x4D415448454D41544943414C20424F4C44204954414C4943204341504954414C204920),
  (0x1D471, 0x4D415448454D41544943414C20424F4C44204954414C4943204341504954414C204A20),
  (0x1D472, 0x4D415448454D41544943414C20424F4C44204954414C4943204341504954414C204B20),
  (0x1D473, 0x4D415448454D41544943414C20424F4C44204954414C4943204341504954414C204C20),
  (0x1D474, 0x4D415448454D41544943414C20424F4C44204954414C4943204341504954414C204D20),
  (0x1D475, 0x4D415448454D41544943414C20424F4C44204954414C4943204341504954414C204E20),
  (0x1D476, 0x4D415448454D41544943414C20424F4C44204954414C4943204341504954414C204F20),
  (0x1D477, 0x4D415448454D41544943414C20424F4C44204954414C4943204341504954414C205020),
  (0x1D478, 0x4D415448454D41544943414C20424F4C44204954414C4943204341504954414C205120),
  (0x1D479, 0x4D415448454D41544943414C20424F4C44204954414C4943204341504954414C205220),
  (0x1D47A, 0x4D415448454D41544943414C20424F4C44204954414C4943204341504954414C205320),
  (0x1D47B, 0x4D415448454D41544943414C20424F4C44204954414C4943204341504954414C205420),
  (0x1D47C, 0x4D415448454D41544943414C20424F4C44204954414C4943204341504954414C205520),
  (0x1D47D, 0x4D415448454D41544943414C20424F4C44204954414C4943204341504954414C205620),
  (0x1D47E, 0x4D415448454D41544943414C20424F4C44204954414C4943204341504954414C205720),
  (0x1D47F, 0x4D415448454D41544943414C20424F4C44204954414C4943204341504954414C205820),
  (0x1D480, 0x4D415448454D41544943414C20424F4C44204954414C4943204341504954414C205920),
  (0x1D481, 0x4D415448454D41544943414C20424F4C44204954414C4943204341504954414C205A20),
  (0x1D482, 0x4D415448454D41544943414C20424F4C44204954414C494320534D414C4C204120),
  (0x1D483, 0x4D415448454D41544943414C20424F4C44204954414C494320534D414C4C204220),
  (0x1D484, 0x4D415448454D41544943414C20424F4C44204954414C494320534D414C4C204320),
  (0x1D485, 0x4D415448454D41544943414C20424F4C44204954414C494320534D414C4C204420),
  (0x1D486, 0x4D415448454D41544943414C20424F4C44204954414C494320534D414C4C204520),
  (0x1D487, 0x4D415448454D41544943414C20424F4C44204954414C494320534D414C4C204620),
  (0x1D488, 0x4D415448454D41544943414C20424F4C44204954414C494320534D414C4C204720),
  (0x1D489, 0x4D415448454D41544943414C20424F4C44204954414C494320534D414C4C204820),
  (0x1D48A, 0x4D415448454D41544943414C20424F4C44204954414C494320534D414C4C204920),
  (0x1D48B, 0x4D415448454D41544943414C20424F4C44204954414C494320534D414C4C204A20),
  (0x1D48C, 0x4D415448454D41544943414C20424F4C44204954414C494320534D414C4C204B20),
  (0x1D48D, 0x4D415448454D41544943414C20424F4C44204954414C494320534D414C4C204C20),
  (0x1D48E, 0x4D415448454D41544943414C20424F4C44204954414C494320534D414C4C204D20),
  (0x1D48F, 0x4D415448454D41544943414C20424F4C44204954414C494320534D414C4C204E20),
  (0x1D490, 0x4D415448454D41544943414C20424F4C44204954414C494320534D414C4C204F20),
  (0x1D491, 0x4D415448454D41544943414C20424F4C44204954414C494320534D414C4C205020),
  (0x1D492, 0x4D415448454D41544943414C20424F4C44204954414C494320534D414C4C205120),
  (0x1D493, 0x4D415448454D41544943414C20424F4C44204954414C494320534D414C4C205220),
  (0x1D494, 0x4D415448454D41544943414C20424F4C44204954414C494320534D414C4C205320),
  (0x1D495, 0x4D415448454D41544943414C20424F4C44204954414C494320534D414C4C205420),
  (0x1D496, 0x4D415448454D41544943414C20424F4C44204954414C494320534D414C4C205520),
  (0x1D497, 0x4D415448454D41544943414C20424F4C44204954414C494320534D414C4C205620),
  (0x1D498, 0x4D415448454D41544943414C20424F4C44204954414C494320534D414C4C205720),
  (0x1D499, 0x4D415448454D41544943414C20424F4C44204954414C494320534D414C4C205820),
  (0x1D49A, 0x4D415448454D41544943414C20424F4C44204954414C494320534D414C4C205920),
  (0x1D49B, 0x4D415448454D41544943414C20424F4C44204954414C494320534D414C4C205A20),
  (0x1D49C, 0x4D415448454D41544943414C20534352495054204341504954414C204120),
  (0x1D49E, 0x4D415448454D41544943414C20534352495054204341504954414C204320),
  (0x1D49F, 0x4D415448454D41544943414C20534352495054204341504954414C204420),
  (0x1D4A2, 0x4D415448454D41544943414C20534352495054204341504954414C204720),
  (0x1D4A5, 0x4D415448454D41544943414C20534352495054204341504954414C204A20),
  (0x1D4A6, 0x4D415448454D41544943414C20534352495054204341504954414C204B20),
  (0x1D4A9, 0x4D415448454D41544943414C20534352495054204341504954414C204E20),
  (0x1D4AA, 0x4D415448454D41544943414C20534352495054204341504954414C204F20),
  (0x1D4AB, 0x4D415448454D41544943414C20534352495054204341504954414C205020),
  (0x1D4AC, 0x4D415448454D41544943414C20534352495054204341504954414C205120),
  (0x1D4AE, 0x4D415448454D41544943414C20534352495054204341504954414C205320),
  (0x1D4AF, 0x4D415448454D41544943414C20534352495054204341504954414C205420),
  (0x1D4B0, 0x4D415448454D41544943414C20534352495054204341504954414C205520),
  (0x1D4B1, 0x4D415448454D41544943414C20534352495054204341504954414C205620),
  (0x1D4B2, 0x4D415448454D41544943414C20534352495054204341504954414C205720),
  (0x1D4B3, 0x4D415448454D41544943414C20534352495054204341504954414C205820),
  (0x1D4B4, 0x4D415448454D41544943414C20534352495054204341504954414C205920),
  (0x1D4B5, 0x4D415448454D41544943414C20534352495054204341504954414C205A20),
  (0x1D4B6, 0x4D415448454D41544943414C2053435249505420534D414C4C204120)]
def names_417 : List (Nat × Nat) := [
  (0x1D4B7, 0x4D415448454D41544943414C2053435249505420534D414C4C204220),
  (0x1D4B8, 0x4D415448454D41544943414C2053435249505420534D414C4C204320),
  (0x1D4B9, 0x4D415448454D41544943414C2053435249505420534D414C4C204420),
  (0x1D4BB, 0x4D415448454D41544943414C2053435249505420534D414C4C204620),
  (0x1D4BD, 0x4D415448454D41544943414C2053435249505420534D414C4C204820),
  (0x1D4BE, 0x4D415448454D41544943414C2053435249505420534D414C4C204920),
  (0x1D4BF, 0x4D415448454D41544943414C2053435249505420534D414C4C204A20),
  (0x1D4C0, 0x4D415448454D41544943414C2053435249505420534D414C4C204B20),
  (0x1D4C1, 0x4D415448454D41544943414C2053435249505420534D414C4C204C20),
  (0x1D4C2, 0x4D415448454D41544943414C2053435249505420534D414C4C204D20),
  (0x1D4C3, 0x4D415448454D41544943414C2053435249505420534D414C4C204E20),
  (0x1D4C5, 0x4D415448454D41544943414C2053435249505420534D414C4C205020),
  (0x1D4C6, 0x4D415448454D41544943414C2053435249505420534D414C4C205120),
  (0x1D4C7, 0x4D415448454D41544943414C2053435249505420534D414C4C205220),
  (0x1D4C8, 0x4D415448454D41544943414C2053435249505420534D414C4C205320),
  (0x1D4C9, 0x4D415448454D41544943414C2053435249505420534D414C4C205420),
  (0x1D4CA, 0x4D415448454D41544943414C2053435249505420534D414C4C205520),
  (0x1D4CB, 0x4D415448454D41544943414C2053435249505420534D414C4C205620),
  (0x1D4CC, 0x4D415448454D41544943414C2053435249505420534D414C4C205720),
  (0x1D4CD, 0x4D415448454D41544943414C2053435249505420534D414C4C205820),
  (0x1D4CE, 0x4D415448454D41544943414C2053435249505420534D414C4C205920),
  (0x1D4CF, 0x4D415448454D41544943414C2053435249505420534D414C4C205A20),
  (0x1D4D0, 0x4D415448454D41544943414C20424F4C4420534352495054204341504954414C204120),
  (0x1D4D1, 0x4D415448454D41544943414C20424F4C4420534352495054204341504954414C204220),
  (0x1D4D2, 0x4D415448454D41544943414C20424F4C4420534352495054204341504954414C204320),
  (0x1D4D3, 0x4D415448454D41544943414C20424F4C4420534352495054204341504954414C204420),
  (0x1D4D4, 0x4D415448454D41544943414C20424F4C4420534352495054204341504954414C204520),
  (0x1D4D5, 0x4D415448454D41544943414C20424F4C4420534352495054204341504954414C204620),
  (0x1D4D6, 0x4D415448454D41544943414C20424F4C4420534352495054204341504954414C204720),
  (0x1D4D7, 0x4D415448454D41544943414C20424F4C4420534352495054204341504954414C204820),
  (0x1D4D8, 0x4D415448454D41544943414C20424F4C4420534352495054204341504954414C204920),
  (0x1D4D9, 0x4D415448454D41544943414C20424F4C4420534352495054204341504954414C204A20),
  (0x1D4DA, 0x4D415448454D41544943414C20424F4C4420534352495054204341504954414C204B20),
  (0x1D4DB, 0x4D415448454D41544943414C20424F4C4420534352495054204341504954414C204C20),
  (0x1D4DC, 0x4D415448454D41544943414C20424F4C4420534352495054204341504954414C204D20),
  (0x1D4DD, 0x4D415448454D41544943414C20424F4C4420534352495054204341504954414C204E20),
  (0x1D4DE, 0x4D415448454D41544943414C20424F4C4420534352495054204341504954414C204F20),
  (0x1D4DF, 0x4D415448454D41544943414C20424F4C4420534352495054204341504954414C205020),
  (0x1D4E0, 0x4D415448454D41544943414C20424F4C4420534352495054204341504954414C205120),
  (0x1D4E1, 0x4D415448454D41544943414C20424F4C4420534352495054204341504954414C205220),
  (0x1D4E2, 0x4D415448454D41544943414C20424F4C4420534352495054204341504954414C205320),
  (0x1D4E3, 0x4D415448454D41544943414C20424F4C4420534352495054204341504954414C205420),
  (0x1D4E4, 0x4D415448454D41544943414C20424F4C4420534352495054204341504954414C205520),
  (0x1D4E5, 0x4D415448454D41544943414C20424F4C4420534352495054204341504954414C205620),
  (0x1D4E6, 0x4D415448454D41544943414C20424F4C4420534352495054204341504954414C205720),
  (0x1D4E7, 0x4D415448454D41544943414C20424F4C4420534352495054204341504954414C205820),
  (0x1D4E8, 0x4D415448454D41544943414C20424F4C4420534352495054204341504954414C205920),
  (0x1D4E9, 0x4D415448454D41544943414C20424F4C4420534352495054204341504954414C205A20),
  (0x1D4EA, 0x4D415448454D41544943414C20424F4C442053435249505420534D414C4C204120),
  (0x1D4EB, 0x4D415448454D41544943414C20424F4C442053435249505420534D414C4C204220),
  (0x1D4EC, 0x4D415448454D41544943414C20424F4C442053435249505420534D414C4C204320),
  (0x1D4ED, 0x4D415448454D41544943414C20424F4C442053435249505420534D414C4C204420),
  (0x1D4EE, 0x4D415448454D41544943414C20424F4C442053435249505420534D414C4C204520),
  (0x1D4EF, 0x4D415448454D41544943414C20424F4C442053435249505420534D414C4C204620),
  (0x1D4F0, 0x4D415448454D41544943414C20424F4C442053435249505420534D414C4C204720),
  (0x1D4F1, 0x4D415448454D41544943414C20424F4C442053435249505420534D414C4C204820),
  (0x1D4F2, 0x4D415448454D41544943414C20424F4C442053435249505420534D414C4C204920),
  (0x1D4F3, 0x4D415448454D41544943414C20424F4C442053435249505420534D414C4C204A20),
  (0x1D4F4, 0x4D415448454D41544943414C20424F4C442053435249505420534D414C4C204B20),
  (0x1D4F5, 0x4D415448454D41544943414C20424F4C442053435249505420534D414C4C204C20),
  (0x1D4F6, 0x4D415448454D41544943414C20424F4C442053435249505420534D414C4C204D20),
  (0x1D4F7, 0x4D415448454D41544943414C20424F4C442053435249505420534D414C4C204E20),
  (0x1D4F8, 0x4D415448454D41544943414C20424F4C442053435249505420534D414C4C204F20),
  (0x1D4F9, 0x4D415448454D41544943414C20424F4C442053435249505420534D414C4C205020)]
def names_418 : List (Nat × Nat) := [
  (0x1D4FA, 0x4D415448454D41544943414C20424F4C442053435249505420534D414C4C205120),
  (0x1D4FB, 0x4D415448454D41544943414C20424F4C442053435249505420534D414C4C205220),
  (0x1D4FC, 0x4D415448454D41544943414C20424F4C442053435249505420534D414C4C205320),
  (0x1D4FD, 0x4D415448454D41544943414C20424F4C442053435249505420534D414C4C205420),
  (0x1D4FE, 0x4D415448454D41544943414C20424F4C442053435249505420534D414C4C205520),
  (0x1D4FF, 0x4D415448454D41544943414C20424F4C442053435249505420534D414C4C205620),
  (0x1D500, 0x4D415448454D41544943414C20424F4C442053435249505420534D414C4C205720),
  (0x1D501, 0x4D415448454D41544943414C20424F4C442053435249505420534D414C4C205820),
  (0x1D502, 0x4D415448454D41544943414C20424F4C442053435249505420534D414C4C205920),
  (0x1D503, 0x4D415448454D41544943414C20424F4C442053435249505420534D414C4C205A20),
  (0x1D504, 0x4D415448454D41544943414C204652414B545552204341504954414C204120),
  (0x1D505, 0x4D415448454D41544943414C204652414B545552204341504954414C204220),
  (0x1D507, 0x4D415448454D41544943414C204652414B545552204341504954414C204420),
  (0x1D508, 0x4D415448454D41544943414C204652414B545552204341504954414C204520),
  (0x1D509, 0x4D415448454D41544943414C204652414B545552204341504954414C204620),
  (0x1D50A, 0x4D415448454D41544943414C204652414B545552204341504954414C204720),
  (0x1D50D, 0x4D415448454D41544943414C204652414B545552204341504954414C204A20),
  (0x1D50E, 0x4D415448454D41544943414C204652414B545552204341504954414C204B20),
  (0x1D50F, 0x4D415448454D41544943414C204652414B545552204341504954414C204C20),
  (0x1D510, 0x4D415448454D41544943414C204652414B545552204341504954414C204D20),
  (0x1D511, 0x4D415448454D41544943414C204652414B545552204341504954414C204E20),
  (0x1D512, 0x4D415448454D41544943414C204652414B545552204341504954414C204F20),
  (0x1D513, 0x4D415448454D41544943414C204652414B545552204341504954414C205020),
  (0x1D514, 0x4D415448454D41544943414C204652414B545552204341504954414C205120),
  (0x1D516, 0x4D415448454D41544943414C204652414B545552204341504954414C205320),
  (0x1D517, 0x4D415448454D41544943414C204652414B545552204341504954414C205420),
  (0x1D518, 0x4D415448454D41544943414C204652414B545552204341504954414C205520),
  (0x1D519, 0x4D415448454D41544943414C204652414B545552204341504954414C205620),
  (0x1D51A, 0x4D415448454D41544943414C204652414B545552204341504954414C205720),
  (0x1D51B, 0x4D415448454D41544943414C204652414B545552204341504954414C205820),
  (0x1D51C, 0x4D415448454D41544943414C204652414B545552204341504954414C205920),
  (0x1D51E, 0x4D415448454D41544943414C204652414B54555220534D414C4C204120),
  (0x1D51F, 0x4D415448454D41544943414C204652414B54555220534D414C4C204220),
  (0x1D520, 0x4D415448454D41544943414C204652414B54555220534D414C4C204320),
  (0x1D521, 0x4D415448454D41544943414C204652414B54555220534D414C4C204420),
  (0x1D522, 0x4D415448454D41544943414C204652414B54555220534D414C4C204520),
  (0x1D523, 0x4D415448454D41544943414C204652414B54555220534D414C4C204620),
  (0x1D524, 0x4D415448454D41544943414C204652414B54555220534D414C4C204720),
  (0x1D525, 0x4D415448454D41544943414C204652414B54555220534D414C4C204820),
  (0x1D526, 0x4D415448454D41544943414C204652414B54555220534D414C4C204920),
  (0x1D527, 0x4D415448454D41544943414C204652414B54555220534D414C4C204A20),
  (0x1D528, 0x4D415448454D41544943414C204652414B54555220534D414C4C204B20),
  (0x1D529, 0x4D415448454D41544943414C204652414B54555220534D414C4C204C20),
  (0x1D52A, 0x4D415448454D41544943414C204652414B54555220534D414C4C204D20),
  (0x1D52B, 0x4D415448454D41544943414C204652414B54555220534D414C4C204E20),
  (0x1D52C, 0x4D415448454D41544943414C204652414B54555220534D414C4C204F20),
  (0x1D52D, 0x4D415448454D41544943414C204652414B54555220534D414C4C205020),
  (0x1D52E, 0x4D415448454D41544943414C204652414B54555220534D414C4C205120),
  (0x1D52F, 0x4D415448454D41544943414C204652414B54555220534D414C4C205220),
  (0x1D530, 0x4D415448454D41544943414C204652414B54555220534D414C4C205320),
  (0x1D531, 0x4D415448454D41544943414C204652414B54555220534D414C4C205420),
  (0x1D532, 0x4D415448454D41544943414C204652414B54555220534D414C4C205520),
  (0x1D533, 0x4D415448454D41544943414C204652414B54555220534D414C4C205620),
  (0x1D534, 0x4D415448454D41544943414C204652414B54555220534D414C4C205720),
  (0x1D535, 0x4D415448454D41544943414C204652414B54555220534D414C4C205820),
  (0x1D536, 0x4D415448454D41544943414C204652414B54555220534D414C4C205920),
  (0x1D537, 0x4D415448454D41544943414C204652414B54555220534D414C4C205A20),
  (0x1D538, 0x4D415448454D41544943414C20444F55424C452D53545255434B204341504954414C204120),
  (0x1D539, 0x4D415448454D41544943414C20444F55424C452D53545255434B204341504954414C204220),
  (0x1D53B, 0x4D415448454D41544943414C20444F55424C452D53545255434B204341504954414C204420),
  (0x1D53C, 0x4D415448454D41544943414C20444F55424C452D53545255434B204341504954414C204520),
  (0x1D53D, 0x4D415448454D41544943414C20444F55424C452D53545255434B204341504954414C204620),
  (0x1D53E, 0x4D415448454D41544943414C20444F55424C452D53545255434B204341504954414C204720),
  (0x1D540, 0x4D415448454D41544943414C20444F55424C452D53545255434B204341504954414C204920)]
def names_419 : List (Nat × Nat) := [
  (0x1D541, 0x4D415448454D41544943414C20444F55424C452D53545255434B204341504954414C204A20),
  (0x1D542, 0x4D415448454D41544943414C20444F55424C452D53545255434B204341504954414C204B20),
  (0x1D543, 0x4D415448454D41544943414C20444F55424C452D53545255434B204341504954414C204C20),
  (0x1D544, 0x4D415448454D41544943414C20444F55424C452D53545255434B204341504954414C204D20),
  (0x1D546, 0x4D415448454D41544943414C20444F55424C452D53545255434B204341504954414C204F20),
  (0x1D54A, 0x4D415448454D41544943414C20444F55424C452D53545255434B204341504954414C205320),
  (0x1D54B, 0x4D415448454D41544943414C20444F55424C452D53545255434B204341504954414C205420),
  (0x1D54C, 0x4D415448454D41544943414C20444F55424C452D53545255434B204341504954414C205520),
  (0x1D54D, 0x4D415448454D41544943414C20444F55424C452D53545255434B204341504954414C205620),
  (0x1D54E, 0x4D415448454D41544943414C20444F55424C452D53545255434B204341504954414C205720),
  (0x1D54F, 0x4D415448454D41544943414C20444F55424C452D53545255434B204341504954414C205820),
  (0x1D550, 0x4D415448454D41544943414C20444F55424C452D53545255434B204341504954414C205920),
  (0x1D552, 0x4D415448454D41544943414C20444F55424C452D53545255434B20534D414C4C204120),
  (0x1D553, 0x4D415448454D41544943414C20444F55424C452D53545255434B20534D414C4C204220),
  (0x1D554, 0x4D415448454D41544943414C20444F55424C452D53545255434B20534D414C4C204320),
  (0x1D555, 0x4D415448454D41544943414C20444F55424C452D53545255434B20534D414C4C204420),
  (0x1D556, 0x4D415448454D41544943414C20444F55424C452D53545255434B20534D414C4C204520),
  (0x1D557, 0x4D415448454D41544943414C20444F55424C452D53545255434B20534D414C4C204620),
  (0x1D558, 0x4D415448454D41544943414C20444F55424C452D53545255434B20534D414C4C204720),
  (0x1D559, 0x4D415448454D41544943414C20444F55424C452D53545255434B20534D414C4C204820),
  (0x1D55A, 0x4D415448454D41544943414C20444F55424C452D53545255434B20534D414C4C204920),
  (0x1D55B, 0x4D415448454D41544943414C20444F55424C452D53545255434B20534D414C4C204A20),
  (0x1D55C, 0x4D415448454D41544943414C20444F55424C452D53545255434B20534D414C4C204B20),
  (0x1D55D, 0x4D415448454D41544943414C20444F55424C452D53545255434B20534D414C4C204C20),
  (0x1D55E, 0x4D415448454D41544943414C20444F55424C452D53545255434B20534D414C4C204D20),
  (0x1D55F, 0x4D415448454D41544943414C20444F55424C452D53545255434B20534D414C4C204E20),
  (0x1D560, 0x4D415448454D41544943414C20444F55424C452D53545255434B20534D414C4C204F20),
  (0x1D561, 0x4D415448454D41544943414C20444F55424C452D53545255434B20534D414C4C205020),
  (0x1D562, 0x4D415448454D41544943414C20444F55424C452D53545255434B20534D414C4C205120),
  (0x1D563, 0x4D415448454D41544943414C20444F55424C452D53545255434B20534D414C4C205220),
  (0x1D564, 0x4D415448454D41544943414C20444F55424C452D53545255434B20534D414C4C205320),
  (0x1D565, 0x4D415448454D41544943414C20444F55424C452D53545255434B20534D414C4C205420),
  (0x1D566, 0x4D415448454D41544943414C20444F55424C452D53545255434B20534D414C4C205520),
  (0x1D567, 0x4D415448454D41544943414C20444F55424C452D53545255434B20534D414C4C205620),
  (0x1D568, 0x4D415448454D41544943414C20444F55424C452D53545255434B20534D414C4C205720),
  (0x1D569, 0x4D415448454D41544943414C20444F55424C452D53545255434B20534D414C4C205820),
  (0x1D56A, 0x4D415448454D41544943414C20444F55424C452D53545255434B20534D414C4C205920),
  (0x1D56B, 0x4D415448454D41544943414C20444F55424C452D53545255434B20534D414C4C205A20),
  (0x1D56C, 0x4D415448454D41544943414C20424F4C44204652414B545552204341504954414C204120),
  (0x1D56D, 0x4D415448454D41544943414C20424F4C44204652414B545552204341504954414C204220),
  (0x1D56E, 0x4D415448454D41544943414C20424F4C44204652414B545552204341504954414C204320),
  (0x1D56F, 0x4D415448454D41544943414C20424F4C44204652414B545552204341504954414C204420),
  (0x1D570, 0x4D415448454D41544943414C20424F4C44204652414B545552204341504954414C204520),
  (0x1D571, 0x4D415448454D41544943414C20424F4C44204652414B545552204341504954414C204620),
  (0x1D572, 0x4D415448454D41544943414C20424F4C44204652414B545552204341504954414C204720),
  (0x1D573, 0x4D415448454D41544943414C20424F4C44204652414B545552204341504954414C204820),
  (0x1D574, 0x4D415448454D41544943414C20424F4C44204652414B545552204341504954414C204920),
  (0x1D575, 0x4D415448454D41544943414C20424F4C44204652414B545552204341504954414C204A20),
  (0x1D576, 0x4D415448454D41544943414C20424F4C44204652414B545552204341504954414C204B20),
  (0x1D577, 0x4D415448454D41544943414C20424F4C44204652414B545552204341504954414C204C20),
  (0x1D578, 0x4D415448454D41544943414C20424F4C44204652414B545552204341504954414C204D20),
  (0x1D579, 0x4D415448454D41544943414C20424F4C44204652414B545552204341504954414C204E20),
  (0x1D57A, 0x4D415448454D41544943414C20424F4C44204652414B545552204341504954414C204F20),
  (0x1D57B, 0x4D415448454D41544943414C20424F4C44204652414B545552204341504954414C205020),
  (0x1D57C, 0x4D415448454D41544943414C20424F4C44204652414B545552204341504954414C205120),
  (0x1D57D, 0x4D415448454D41544943414C20424F4C44204652414B545552204341504954414C205220),
  (0x1D57E, 0x4D415448454D41544943414C20424F4C44204652414B545552204341504954414C205320),
  (0x1D57F, 0x4D415448454D41544943414C20424F4C44204652414B545552204341504954414C205420),
  (0x1D580, 0x4D415448454D41544943414C20424F4C44204652414B545552204341504954414C205520),
  (0x1D581, 0x4D415448454D41544943414C20424F4C44204652414B545552204341504954414C205620),
  (0x1D582, 0x4D415448454D41544943414C20424F4C44204652414B545552204341504954414C205720),
  (0x1D583, 0x4D415448454D41544943414C20424F4C44204652414B545552204341504954414C205820),
  (0x1D584, 0x4D415448454D41544943414C20424F4C44204652414B545552204341504954414C205920),
  (0x1D585, 0x4D415448454D41544943414C20424F4C44204652414B545552204341504954414C205A20)]
def names_420 : List (Nat × Nat) := [
  (0x1D586, 0x4D415448454D41544943414C20424F4C44204652414B54555220534D414C4C204120),
  (0x1D587, 0x4D415448454D41544943414C20424F4C44204652414B54555220534D414C4C204220),
  (0x1D588, 0x4D415448454D41544943414C20424F4C44204652414B54555220534D414C4C204320),
  (0x1D589, 0x4D415448454D41544943414C20424F4C44204652414B54555220534D414C4C204420),
  (0x1D58A, 0x4D415448454D41544943414C20424F4C44204652414B54555220534D414C4C204520),
  (0x1D58B, 0x4D415448454D41544943414C20424F4C44204652414B54555220534D414C4C204620),
  (0x1D58C, 0x4D415448454D41544943414C20424F4C44204652414B54555220534D414C4C204720),
  (0x1D58D, 0x4D415448454D41544943414C20424F4C44204652414B54555220534D414C4C204820),
  (0x1D58E, 0x4D415448454D41544943414C20424F4C44204652414B54555220534D414C4C204920),
  (0x1D58F, 0x4D415448454D41544943414C20424F4C44204652414B54555220534D414C4C204A20),
  (0x1D590, 0x4D415448454D41544943414C20424F4C44204652414B54555220534D414C4C204B20),
  (0x1D591, 0x4D415448454D41544943414C20424F4C44204652414B54555220534D414C4C204C20),
  (0x1D592, 0x4D415448454D41544943414C20424F4C44204652414B54555220534D414C4C204D20),
  (0x1D593, 0x4D415448454D41544943414C20424F4C44204652414B54555220534D414C4C204E20),
  (0x1D594, 0x4D415448454D41544943414C20424F4C44204652414B54555220534D414C4C204F20),
  (0x1D595, 0x4D415448454D41544943414C20424F4C44204652414B54555220534D414C4C205020),
  (0x1D596, 0x4D415448454D41544943414C20424F4C44204652414B54555220534D414C4C205120),
  (0x1D597, 0x4D415448454D41544943414C20424F4C44204652414B54555220534D414C4C205220),
  (0x1D598, 0x4D415448454D41544943414C20424F4C44204652414B54555220534D414C4C205320),
  (0x1D599, 0x4D415448454D41544943414C20424F4C44204652414B54555220534D414C4C205420),
  (0x1D59A, 0x4D415448454D41544943414C20424F4C44204652414B54555220534D414C4C205520),
  (0x1D59B, 0x4D415448454D41544943414C20424F4C44204652414B54555220534D414C4C205620),
  (0x1D59C, 0x4D415448454D41544943414C20424F4C44204652414B54555220534D414C4C205720),
  (0x1D59D, 0x4D415448454D41544943414C20424F4C44204652414B54555220534D414C4C205820),
  (0x1D59E, 0x4D415448454D41544943414C20424F4C44204652414B54555220534D414C4C205920),
  (0x1D59F, 0x4D415448454D41544943414C20424F4C44204652414B54555220534D414C4C205A20),
  (0x1D5A0, 0x4D415448454D41544943414C2053414E532D5345524946204341504954414C204120),
  (0x1D5A1, 0x4D415448454D41544943414C2053414E532D5345524946204341504954414C204220),
  (0x1D5A2, 0x4D415448454D41544943414C2053414E532D5345524946204341504954414C204320),
  (0x1D5A3, 0x4D415448454D41544943414C2053414E532D5345524946204341504954414C204420),
  (0x1D5A4, 0x4D415448454D41544943414C2053414E532D5345524946204341504954414C204520),
  (0x1D5A5, 0x4D415448454D41544943414C2053414E532D5345524946204341504954414C204620),
  (0x1D5A6, 0x4D415448454D41544943414C2053414E532D5345524946204341504954414C204720),
  (0x1D5A7, 0x4D415448454D41544943414C2053414E532D5345524946204341504954414C204820),
  (0x1D5A8, 0x4D415448454D41544943414C2053414E532D5345524946204341504954414C204920),
  (0x1D5A9, 0x4D415448454D41544943414C2053414E532D5345524946204341504954414C204A20),
  (0x1D5AA, 0x4D415448454D41544943414C2053414E532D5345524946204341504954414C204B20),
  (0x1D5AB, 0x4D415448454D41544943414C2053414E532D5345524946204341504954414C204C20),
  (0x1D5AC, 0x4D415448454D41544943414C2053414E532D5345524946204341504954414C204D20),
  (0x1D5AD, 0x4D415448454D41544943414C2053414E532D5345524946204341504954414C204E20),
  (0x1D5AE, 0x4D415448454D41544943414C2053414E532D5345524946204341504954414C204F20),
  (0x1D5AF, 0x4D415448454D41544943414C2053414E532D5345524946204341504954414C205020),
  (0x1D5B0, 0x4D415448454D41544943414C2053414E532D5345524946204341504954414C205120),
  (0x1D5B1, 0x4D415448454D41544943414C2053414E532D5345524946204341504954414C205220),
  (0x1D5B2, 0x4D415448454D41544943414C2053414E532D5345524946204341504954414C205320),
  (0x1D5B3, 0x4D415448454D41544943414C2053414E532D5345524946204341504954414C205420),
  (0x1D5B4, 0x4D415448454D41544943414C2053414E532D5345524946204341504954414C205520),
  (0x1D5B5, 0x4D415448454D41544943414C2053414E532D5345524946204341504954414C205620),
  (0x1D5B6, 0x4D415448454D41544943414C2053414E532D5345524946204341504954414C205720),
  (0x1D5B7, 0x4D415448454D41544943414C2053414E532D5345524946204341504954414C205820),
  (0x1D5B8, 0x4D415448454D41544943414C2053414E532D5345524946204341504954414C205920),
  (0x1D5B9, 0x4D415448454D41544943414C2053414E532D5345524946204341504954414C205A20),
  (0x1D5BA, 0x4D415448454D41544943414C2053414E532D534552494620534D414C4C204120),
  (0x1D5BB, 0x4D415448454D41544943414C2053414E532D534552494620534D414C4C204220),
  (0x1D5BC, 0x4D415448454D41544943414C2053414E532D534552494620534D414C4C204320),
  (0x1D5BD, 0x4D415448454D41544943414C2053414E532D534552494620534D414C4C204420),
  (0x1D5BE, 0x4D415448454D41544943414C2053414E532D534552494620534D414C4C204520),
  (0x1D5BF, 0x4D415448454D41544943414C2053414E532D534552494620534D414C4C204620),
  (0x1D5C0, 0x4D415448454D41544943414C2053414E532D534552494620534D414C4C204720),
  (0x1D5C1, 0x4D415448454D41544943414C2053414E532D534552494620534D414C4C204820),
  (0x1D5C2, 0x4D415448454D41544943414C2053414E532D534552494620534D414C4C204920),
  (0x1D5C3, 0x4D415448454D41544943414C2053414E532D534552494620534D414C4C204A20),
  (0x1D5C4, 0x4D415448454D41544943414C2053414E532D534552494620534D414C4C204B20),
  (0x1D5C5, 0x4D415448454D41544943414C2053414E532D534552494620534D414C4C204C20)]
def names_421 : List (Nat × Nat) := [
  (0x1D5C6, 0x4D415448454D41544943414C2053414E532D534552494620534D414C4C204D20),
  (0x1D5C7, 0x4D415448454D41544943414C2053414E532D534552494620534D414C4C204E20),
  (0x1D5C8, 0x4D415448454D41544943414C2053414E532D534552494620534D414C4C204F20),
  (0x1D5C9, 0x4D415448454D41544943414C2053414E532D534552494620534D414C4C205020),
  (0x1D5CA, 0x4D415448454D41544943414C2053414E532D534552494620534D414C4C205120),
  (0x1D5CB, 0x4D415448454D41544943414C2053414E532D534552494620534D414C4C205220),
  (0x1D5CC, 0x4D415448454D41544943414C2053414E532D534552494620534D414C4C205320),
  (0x1D5CD, 0x4D415448454D41544943414C2053414E532D534552494620534D414C4C205420),
  (0x1D5CE, 0x4D415448454D41544943414C2053414E532D534552494620534D414C4C205520),
  (0x1D5CF, 0x4D415448454D41544943414C2053414E532D534552494620534D414C4C205620),
  (0x1D5D0, 0x4D415448454D41544943414C2053414E532D534552494620534D414C4C205720),
  (0x1D5D1, 0x4D415448454D41544943414C2053414E532D534552494620534D414C4C205820),
  (0x1D5D2, 0x4D415448454D41544943414C2053414E532D534552494620534D414C4C205920),
  (0x1D5D3, 0x4D415448454D41544943414C2053414E532D534552494620534D414C4C205A20),
  (0x1D5D4, 0x4D415448454D41544943414C2053414E532D534552494620424F4C44204341504954414C204120),
  (0x1D5D5, 0x4D415448454D41544943414C2053414E532D534552494620424F4C44204341504954414C204220),
  (0x1D5D6, 0x4D415448454D41544943414C2053414E532D534552494620424F4C44204341504954414C204320),
  (0x1D5D7, 0x4D415448454D41544943414C2053414E532D534552494620424F4C44204341504954414C204420),
  (0x1D5D8, 0x4D415448454D41544943414C2053414E532D534552494620424F4C44204341504954414C204520),
  (0x1D5D9, 0x4D415448454D41544943414C2053414E532D534552494620424F4C44204341504954414C204620),
  (0x1D5DA, 0x4D415448454D41544943414C2053414E532D534552494620424F4C44204341504954414C204720),
  (0x1D5DB, 0x4D415448454D41544943414C2053414E532D534552494620424F4C44204341504954414C204820),
  (0x1D5DC, 0x4D415448454D41544943414C2053414E532D534552494620424F4C44204341504954414C204920),
  (0x1D5DD, 0x4D415448454D41544943414C2053414E532D534552494620424F4C44204341504954414C204A20),
  (0x1D5DE, 0x4D415448454D41544943414C2053414E532D534552494620424F4C44204341504954414C204B20),
  (0x1D5DF, 0x4D415448454D41544943414C2053414E532D534552494620424F4C44204341504954414C204C20),
  (0x1D5E0, 0x4D415448454D41544943414C2053414E532D534552494620424F4C44204341504954414C204D20),
  (0x1D5E1, 0x4D415448454D41544943414C2053414E532D534552494620424F4C44204341504954414C204E20),
  (0x1D5E2, 0x4D415448454D41544943414C2053414E532D534552494620424F4C44204341504954414C204F20),
  (0x1D5E3, 0x4D415448454D41544943414C2053414E532D534552494620424F4C44204341504954414C205020),
  (0x1D5E4, 0x4D415448454D41544943414C2053414E532D534552494620424F4C44204341504954414C205120),
  (0x1D5E5, 0x4D415448454D41544943414C2053414E532D534552494620424F4C44204341504954414C205220),
  (0x1D5E6, 0x4D415448454D41544943414C2053414E532D534552494620424F4C44204341504954414C205320),
  (0x1D5E7, 0x4D415448454D41544943414C2053414E532D534552494620424F4C44204341504954414C205420),
  (0x1D5E8, 0x4D415448454D41544943414C2053414E532D534552494620424F4C44204341504954414C205520),
  (0x1D5E9, 0x4D415448454D41544943414C2053414E532D534552494620424F4C44204341504954414C205620),
  (0x1D5EA, 0x4D415448454D41544943414C2053414E532D534552494620424F4C44204341504954414C205720),
  (0x1D5EB, 0x4D415448454D41544943414C2053414E532D534552494620424F4C44204341504954414C205820),
  (0x1D5EC, 0x4D415448454D41544943414C2053414E532D534552494620424F4C44204341504954414C205920),
  (0x1D5ED, 0x4D415448454D41544943414C2053414E532D534552494620424F4C44204341504954414C205A20),
  (0x1D5EE, 0x4D415448454D41544943414C2053414E532D534552494620424F4C4420534D414C4C204120),
  (0x1D5EF, 0x4D415448454D41544943414C2053414E532D534552494620424F4C4420534D414C4C204220),
  (0x1D5F0, 0x4D415448454D41544943414C2053414E532D534552494620424F4C4420534D414C4C204320),
  (0x1D5F1, 0x4D415448454D41544943414C2053414E532D534552494620424F4C4420534D414C4C204420),
  (0x1D5F2, 0x4D415448454D41544943414C2053414E532D534552494620424F4C4420534D414C4C204520),
  (0x1D5F3, 0x4D415448454D41544943414C2053414E532D534552494620424F4C4420534D414C4C204620),
  (0x1D5F4, 0x4D415448454D41544943414C2053414E532D534552494620424F4C4420534D414C4C204720),
  (0x1D5F5, 0x4D415448454D41544943414C2053414E532D534552494620424F4C4420534D414C4C204820),
  (0x1D5F6, 0x4D415448454D41544943414C2053414E532D534552494620424F4C4420534D414C4C204920),
  (0x1D5F7, 0x4D415448454D41544943414C2053414E532D534552494620424F4C4420534D414C4C204A20),
  (0x1D5F8, 0x4D415448454D41544943414C2053414E532D534552494620424F4C4420534D414C4C204B20),
  (0x1D5F9, 0x4D415448454D41544943414C2053414E532D534552494620424F4C4420534D414C4C204C20),
  (0x1D5FA, 0x4D415448454D41544943414C2053414E532D534552494620424F4C4420534D414C4C204D20),
  (0x1D5FB, 0x4D415448454D41544943414C2053414E532D534552494620424F4C4420534D414C4C204E20),
  (0x1D5FC, 0x4D415448454D41544943414C2053414E532D534552494620424F4C4420534D414C4C204F20),
  (0x1D5FD, 0x4D415448454D41544943414C2053414E532D534552494620424F4C4420534D414C4C205020),
  (0x1D5FE, 0x4D415448454D41544943414C2053414E532D534552494620424F4C4420534D414C4C205120),
  (0x1D5FF, 0x4D415448454D41544943414C2053414E532D534552494620424F4C4420534D414C4C205220),
  (0x1D600, 0x4D415448454D41544943414C2053414E532D534552494620424F4C4420534D414C4C205320),
  (0x1D601, 0x4D415448454D41544943414C2053414E532D534552494620424F4C4420534D414C4C205420),
  (0x1D602, 0x4D415448454D41544943414C2053414E532D534552494620424F4C4420534D414C4C205520),
  (0x1D603, 0x4D415448454D41544943414C2053414E532D534552494620424F4C4420534D414C4C205620),
  (0x1D604, 0x4D415448454D41544943414C2053414E532D534552494620424F4C4420534D414C4C205720),
  (0x1D605, 0x4D415448454D41544943414C2053414E532D534552494620424F4C4420534D414C4C205820)]
def names_422 : List (Nat × Nat) := [
  (0x1D606, 0x4D415448454D41544943414C2053414E532D534552494620424F4C4420534D414C4C205920),
  (0x1D607, 0x4D415448454D41544943414C2053414E532D534552494620424F4C4420534D414C4C205A20),
  (0x1D608, 0x4D415448454D41544943414C2053414E532D5345524946204954414C4943204341504954414C204120),
  (0x1D609, 0x4D415448454D41544943414C2053414E532D5345524946204954414C4943204341504954414C204220),
  (0x1D60A, 0x4D415448454D41544943414C2053414E532D5345524946204954414C4943204341504954414C204320),
  (0x1D60B, 0x4D415448454D41544943414C2053414E532D5345524946204954414C4943204341504954414C204420),
  (0x1D60C, 0x4D415448454D41544943414C2053414E532D5345524946204954414C4943204341504954414C204520),
  (0x1D60D, 0x4D415448454D41544943414C2053414E532D5345524946204954414C4943204341504954414C204620),
  (0x1D60E, 0x4D415448454D41544943414C2053414E532D5345524946204954414C4943204341504954414C204720),
  (0x1D60F, 0x4D415448454D41544943414C2053414E532D5345524946204954414C4943204341504954414C204820),
  (0x1D610, 0x4D415448454D41544943414C2053414E532D5345524946204954414C4943204341504954414C204920),
  (0x1D611, 0x4D415448454D41544943414C2053414E532D5345524946204954414C4943204341504954414C204A20),
  (0x1D612, 0x4D415448454D41544943414C2053414E532D5345524946204954414C4943204341504954414C204B20),
  (0x1D613, 0x4D415448454D41544943414C2053414E532D5345524946204954414C4943204341504954414C204C20),
  (0x1D614, 0x4D415448454D41544943414C2053414E532D5345524946204954414C4943204341504954414C204D20),
  (0x1D615, 0x4D415448454D41544943414C2053414E532D5345524946204954414C4943204341504954414C204E20),
  (0x1D616, 0x4D415448454D41544943414C2053414E532D5345524946204954414C4943204341504954414C204F20),
  (0x1D617, 0x4D415448454D41544943414C2053414E532D5345524946204954414C4943204341504954414C205020),
  (0x1D618, 0x4D415448454D41544943414C2053414E532D5345524946204954414C4943204341504954414C205120),
  (0x1D619, 0x4D415448454D41544943414C2053414E532D5345524946204954414C4943204341504954414C205220),
  (0x1D61A, 0x4D415448454D41544943414C2053414E532D5345524946204954414C4943204341504954414C205320),
  (0x1D61B, 0x4D415448454D41544943414C2053414E532D5345524946204954414C4943204341504954414C205420),
  (0x1D61C, 0x4D415448454D41544943414C2053414E532D5345524946204954414C4943204341504954414C205520),
  (0x1D61D, 0x4D415448454D41544943414C2053414E532D5345524946204954414C4943204341504954414C205620),
  (0x1D61E, 0x4D415448454D41544943414C2053414E532D5345524946204954414C4943204341504954414C205720),
  (0x1D61F, 0x4D415448454D41544943414C2053414E532D5345524946204954414C4943204341504954414C205820),
  (0x1D620, 0x4D415448454D41544943414C2053414E532D5345524946204954414C4943204341504954414C205920),
  (0x1D621, 0x4D415448454D41544943414C2053414E532D5345524946204954414C4943204341504954414C205A20),
  (0x1D622, 0x4D415448454D41544943414C2053414E532D5345524946204954414C494320534D414C4C204120),
  (0x1D623, 0x4D415448454D41544943414C2053414E532D5345524946204954414C494320534D414C4C204220),
  (0x1D624, 0x4D415448454D41544943414C2053414E532D5345524946204954414C494320534D414C4C204320),
  (0x1D625, 0x4D415448454D41544943414C2053414E532D5345524946204954414C494320534D414C4C204420),
  (0x1D626, 0x4D415448454D41544943414C2053414E532D5345524946204954414C494320534D414C4C204520),
  (0x1D627, 0x4D415448454D41544943414C2053414E532D5345524946204954414C494320534D414C4C204620),
  (0x1D628, 0x4D415448454D41544943414C2053414E532D5345524946204954414C494320534D414C4C204720),
  (0x1D629, 0x4D415448454D41544943414C2053414E532D5345524946204954414C494320534D414C4C204820),
  (0x1D62A, 0x4D415448454D41544943414C2053414E532D5345524946204954414C494320534D414C4C204920),
  (0x1D62B, 0x4D415448454D41544943414C2053414E532D5345524946204954414C494320534D414C4C204A20),
  (0x1D62C, 0x4D415448454D41544943414C2053414E532D5345524946204954414C494320534D414C4C204B20),
  (0x1D62D, 0x4D415448454D41544943414C2053414E532D5345524946204954414C494320534D414C4C204C20),
  (0x1D62E, 0x4D415448454D41544943414C2053414E532D5345524946204954414C494320534D414C4C204D20),
  (0x1D62F, 0x4D415448454D41544943414C2053414E532D5345524946204954414C494320534D414C4C204E20),
  (0x1D630, 0x4D415448454D41544943414C2053414E532D5345524946204954414C494320534D414C4C204F20),
  (0x1D631, 0x4D415448454D41544943414C2053414E532D5345524946204954414C494320534D414C4C205020),
  (0x1D632, 0x4D415448454D41544943414C2053414E532D5345524946204954414C494320534D414C4C205120),
  (0x1D633, 0x4D415448454D41544943414C2053414E532D5345524946204954414C494320534D414C4C205220),
  (0x1D634, 0x4D415448454D41544943414C2053414E532D5345524946204954414C494320534D414C4C205320),
  (0x1D635, 0x4D415448454D41544943414C2053414E532D5345524946204954414C494320534D414C4C205420),
  (0x1D636, 0x4D415448454D41544943414C2053414E532D5345524946204954414C494320534D414C4C205520),
  (0x1D637, 0x4D415448454D41544943414C2053414E532D5345524946204954414C494320534D414C4C205620),
  (0x1D638, 0x4D415448454D41544943414C2053414E532D5345524946204954414C494320534D414C4C205720),
  (0x1D639, 0x4D415448454D41544943414C2053414E532D5345524946204954414C494320534D414C4C205820),
  (0x1D63A, 0x4D415448454D41544943414C2053414E532D5345524946204954414C494320534D414C4C205920),
  (0x1D63B, 0x4D415448454D41544943414C2053414E532D5345524946204954414C494320534D414C4C205A20),
  (0x1D63C, 0x4D415448454D41544943414C2053414E532D534552494620424F4C44204954414C4943204341504954414C204120),
  (0x1D63D, 0x4D415448454D41544943414C2053414E532D534552494620424F4C44204954414C4943204341504954414C204220),
  (0x1D63E, 0x4D415448454D41544943414C2053414E532D534552494620424F4C44204954414C4943204341504954414C204320),
  (0x1D63F, 0x4D415448454D41544943414C2053414E532D534552494620424F4C44204954414C4943204341504954414C204420),
  (0x1D640, 0x4D415448454D41544943414C2053414E532D534552494620424F4C44204954414C4943204341504954414C204520),
  (0x1D641, 0x4D415448454D41544943414C2053414E532D534552494620424F4C44204954414C4943204341504954414C204620),
  (0x1D642, 0x4D415448454D41544943414C2053414E532D534552494620424F4C44204954414C4943204341504954414C204720),
  (0x1D643, 0x4D415448454D41544943414C2053414E532D534552494620424F4C44204954414C4943204341504954414C204820),
  (0x1D644, 0x4D415448454D41544943414C2053414E532D534552494620424F4C44204954414C4943204341504954414C204920),
  (0x1D645, 0x4D415448454D41544943414C2053414E532D534552494620424F4C44204954414C4943204341504954414C204A20)]
def names_423 : List (Nat × Nat) := [
  (0x1D646, 0x4D415448454D41544943414C2053414E532D534552494620424F4C44204954414C4943204341504954414C204B20),
  (0x1D647, 0x4D415448454D41544943414C2053414E532D534552494620424F4C44204954414C4943204341504954414C204C20),
  (0x1D648, 0x4D415448454D41544943414C2053414E532D534552494620424F4C44204954414C4943204341504954414C204D20),
  (0x1D649, 0x4D415448454D41544943414C2053414E532D534552494620424F4C44204954414C4943204341504954414C204E20),
  (0x1D64A, 0x4D415448454D41544943414C2053414E532D534552494620424F4C44204954414C4943204341504954414C204F20),
  (0x1D64B, 0x4D415448454D41544943414C2053414E532D534552494620424F4C44204954414C4943204341504954414C205020),
  (0x1D64C, 0x4D415448454D41544943414C2053414E532D534552494620424F4C44204954414C4943204341504954414C205120),
  (0x1D64D, 0x4D415448454D41544943414C2053414E532D534552494620424F4C44204954414C4943204341504954414C205220),
  (0x1D64E, 0x4D415448454D41544943414C2053414E532D534552494620424F4C44204954414C4943204341504954414C205320),
  (0x1D64F, 0x4D415448454D41544943414C2053414E532D534552494620424F4C44204954414C4943204341504954414C205420),
  (0x1D650, 0x4D415448454D41544943414C2053414E532D534552494620424F4C44204954414C4943204341504954414C205520),
  (0x1D651, 0x4D415448454D41544943414C2053414E532D534552494620424F4C44204954414C4943204341504954414C205620),
  (0x1D652, 0x4D415448454D41544943414C2053414E532D534552494620424F4C44204954414C4943204341504954414C205720),
  (0x1D653, 0x4D415448454D41544943414C2053414E532D534552494620424F4C44204954414C4943204341504954414C205820),
  (0x1D654, 0x4D415448454D41544943414C2053414E532D534552494620424F4C44204954414C4943204341504954414C205920),
  (0x1D655, 0x4D415448454D41544943414C2053414E532D534552494620424F4C44204954414C4943204341504954414C205A20),
  (0x1D656, 0x4D415448454D41544943414C2053414E532D534552494620424F4C44204954414C494320534D414C4C204120),
  (0x1D657, 0x4D415448454D41544943414C2053414E532D534552494620424F4C44204954414C494320534D414C4C204220),
  (0x1D658, 0x4D415448454D41544943414C2053414E532D534552494620424F4C44204954414C494320534D414C4C204320),
  (0x1D659, 0x4D415448454D41544943414C2053414E532D534552494620424F4C44204954414C494320534D414C4C204420),
  (0x1D65A, 0x4D415448454D41544943414C2053414E532D534552494620424F4C44204954414C494320534D414C4C204520),
  (0x1D65B, 0x4D415448454D41544943414C2053414E532D534552494620424F4C44204954414C494320534D414C4C204620),
  (0x1D65C, 0x4D415448454D41544943414C2053414E532D534552494620424F4C44204954414C494320534D414C4C204720),
  (0x1D65D, 0x4D415448454D41544943414C2053414E532D534552494620424F4C44204954414C494320534D414C4C204820),
  (0x1D65E, 0x4D415448454D41544943414C2053414E532D534552494620424F4C44204954414C494320534D414C4C204920),
  (0x1D65F, 0x4D415448454D41544943414C2053414E532D534552494620424F4C44204954414C494320534D414C4C204A20),
  (0x1D660, 0x4D415448454D41544943414C2053414E532D534552494620424F4C44204954414C494320534D414C4C204B20),
  (0x1D661, 0x4D415448454D41544943414C2053414E532D534552494620424F4C44204954414C494320534D414C4C204C20),
  (0x1D662, 0x4D415448454D41544943414C2053414E532D534552494620424F4C44204954414C494320534D414C4C204D20),
  (0x1D663, 0x4D415448454D41544943414C2053414E532D534552494620424F4C44204954414C494320534D414C4C204E20),
  (0x1D664, 0x4D415448454D41544943414C2053414E532D534552494620424F4C44204954414C494320534D414C4C204F20),
  (0x1D665, 0x4D415448454D41544943414C2053414E532D534552494620424F4C44204954414C494320534D414C4C205020),
  (0x1D666, 0x4D415448454D41544943414C2053414E532D534552494620424F4C44204954414C494320534D414C4C205120),
  (0x1D667, 0x4D415448454D41544943414C2053414E532D534552494620424F4C44204954414C494320534D414C4C205220),
  (0x1D668, 0x4D415448454D41544943414C2053414E532D534552494620424F4C44204954414C494320534D414C4C205320),
  (0x1D669, 0x4D415448454D41544943414C2053414E532D534552494620424F4C44204954414C494320534D414C4C205420),
  (0x1D66A, 0x4D415448454D41544943414C2053414E532D534552494620424F4C44204954414C494320534D414C4C205520),
  (0x1D66B, 0x4D415448454D41544943414C2053414E532D534552494620424F4C44204954414C494320534D414C4C205620),
  (0x1D66C, 0x4D415448454D41544943414C2053414E532D534552494620424F4C44204954414C494320534D414C4C205720),
  (0x1D66D, 0x4D415448454D41544943414C2053414E532D534552494620424F4C44204954414C494320534D414C4C205820),
  (0x1D66E, 0x4D415448454D41544943414C2053414E532D534552494620424F4C44204954414C494320534D414C4C205920),
  (0x1D66F, 0x4D415448454D41544943414C2053414E532D534552494620424F4C44204954414C494320534D414C4C205A20),
  (0x1D670, 0x4D415448454D41544943414C204D4F4E4F5350414345204341504954414C204120),
  (0x1D671, 0x4D415448454D41544943414C204D4F4E4F5350414345204341504954414C204220),
  (0x1D672, 0x4D415448454D41544943414C204D4F4E4F5350414345204341504954414C204320),
  (0x1D673, 0x4D415448454D41544943414C204D4F4E4F5350414345204341504954414C204420),
  (0x1D674, 0x4D415448454D41544943414C204D4F4E4F5350414345204341504954414C204520),
  (0x1D675, 0x4D415448454D41544943414C204D4F4E4F5350414345204341504954414C204620),
  (0x1D676, 0x4D415448454D41544943414C204D4F4E4F5350414345204341504954414C204720),
  (0x1D677, 0x4D415448454D41544943414C204D4F4E4F5350414345204341504954414C204820),
  (0x1D678, 0x4D415448454D41544943414C204D4F4E4F5350414345204341504954414C204920),
  (0x1D679, 0x4D415448454D41544943414C204D4F4E4F5350414345204341504954414C204A20),
  (0x1D67A, 0x4D415448454D41544943414C204D4F4E4F5350414345204341504954414C204B20),
  (0x1D67B, 0x4D415448454D41544943414C204D4F4E4F5350414345204341504954414C204C20),
  (0x1D67C, 0x4D415448454D41544943414C204D4F4E4F5350414345204341504954414C204D20),
  (0x1D67D, 0x4D415448454D41544943414C204D4F4E4F5350414345204341504954414C204E20),
  (0x1D67E, 0x4D415448454D41544943414C204D4F4E4F5350414345204341504954414C204F20),
  (0x1D67F, 0x4D415448454D41544943414C204D4F4E4F5350414345204341504954414C205020),
  (0x1D680, 0x4D415448454D41544943414C204D4F4E4F5350414345204341504954414C205120),
  (0x1D681, 0x4D415448454D41544943414C204D4F4E4F5350414345204341504954414C205220),
  (0x1D682, 0x4D415448454D41544943414C204D4F4E4F5350414345204341504954414C205320),
  (0x1D683, 0x4D415448454D41544943414C204D4F4E4F5350414345204341504954414C205420),
  (0x1D684, 0x4D415448454D41544943414C204D4F4E4F5350414345204341504954414C205520),
  (0x1D685, 0x4D415448454D41544943414C204D4F4E4F5350414345204341504954414C205620)]
def names_424 : List (Nat × Nat) := [
  (0x1D686, 0x4D415448454D41544943414C204D4F4E4F5350414345204341504954414C205720),
  (0x1D687, 0x4D415448454D41544943414C204D4F4E4F5350414345204341504954414C205820),
  (0x1D688, 0x4D415448454D41544943414C204D4F4E4F5350414345204341504954414C205920),
  (0x1D689, 0x4D415448454D41544943414C204D4F4E4F5350414345204341504954414C205A20),
  (0x1D68A, 0x4D415448454D41544943414C204D4F4E4F535041434520534D414C4C204120),
  (0x1D68B, 0x4D415448454D41544943414C204D4F4E4F535041434520534D414C4C204220),
  (0x1D68C, 0x4D415448454D41544943414C204D4F4E4F535041434520534D414C4C204320),
  (0x1D68D, 0x4D415448454D41544943414C204D4F4E4F535041434520534D414C4C204420),
  (0x1D68E, 0x4D415448454D41544943414C204D4F4E4F535041434520534D414C4C204520),
  (0x1D68F, 0x4D415448454D41544943414C204D4F4E4F535041434520534D414C4C204620),
  (0x1D690, 0x4D415448454D41544943414C204D4F4E4F535041434520534D414C4C204720),
  (0x1D691, 0x4D415448454D41544943414C204D4F4E4F535041434520534D414C4C204820),
  (0x1D692, 0x4D415448454D41544943414C204D4F4E4F535041434520534D414C4C204920),
  (0x1D693, 0x4D415448454D41544943414C204D4F4E4F535041434520534D414C4C204A20),
  (0x1D694, 0x4D415448454D41544943414C204D4F4E4F535041434520534D414C4C204B20),
  (0x1D695, 0x4D415448454D41544943414C204D4F4E4F535041434520534D414C4C204C20),
  (0x1D696, 0x4D415448454D41544943414C204D4F4E4F535041434520534D414C4C204D20),
  (0x1D697, 0x4D415448454D41544943414C204D4F4E4F535041434520534D414C4C204E20),
  (0x1D698, 0x4D415448454D41544943414C204D4F4E4F535041434520534D414C4C204F20),
  (0x1D699, 0x4D415448454D41544943414C204D4F4E4F535041434520534D414C4C205020),
  (0x1D69A, 0x4D415448454D41544943414C204D4F4E4F535041434520534D414C4C205120),
  (0x1D69B, 0x4D415448454D41544943414C204D4F4E4F535041434520534D414C4C205220),
  (0x1D69C, 0x4D415448454D41544943414C204D4F4E4F535041434520534D414C4C205320),
  (0x1D69D, 0x4D415448454D41544943414C204D4F4E4F535041434520534D414C4C205420),
  (0x1D69E, 0x4D415448454D41544943414C204D4F4E4F535041434520534D414C4C205520),
  (0x1D69F, 0x4D415448454D41544943414C204D4F4E4F535041434520534D414C4C205620),
  (0x1D6A0, 0x4D415448454D41544943414C204D4F4E4F535041434520534D414C4C205720),
  (0x1D6A1, 0x4D415448454D41544943414C204D4F4E4F535041434520534D414C4C205820),
  (0x1D6A2, 0x4D415448454D41544943414C204D4F4E4F535041434520534D414C4C205920),
  (0x1D6A3, 0x4D415448454D41544943414C204D4F4E4F535041434520534D414C4C205A20),
  (0x1D6A4, 0x4D415448454D41544943414C204954414C494320534D414C4C20444F544C455353204920),
  (0x1D6A5, 0x4D415448454D41544943414C204954414C494320534D414C4C20444F544C455353204A20),
  (0x1D6A8, 0x4D415448454D41544943414C20424F4C44204341504954414C20414C50484120),
  (0x1D6A9, 0x4D415448454D41544943414C20424F4C44204341504954414C204245544120),
  (0x1D6AA, 0x4D415448454D41544943414C20424F4C44204341504954414C2047414D4D4120),
  (0x1D6AB, 0x4D415448454D41544943414C20424F4C44204341504954414C2044454C544120),
  (0x1D6AC, 0x4D415448454D41544943414C20424F4C44204341504954414C20455053494C4F4E20),
  (0x1D6AD, 0x4D415448454D41544943414C20424F4C44204341504954414C205A45544120),
  (0x1D6AE, 0x4D415448454D41544943414C20424F4C44204341504954414C2045544120),
  (0x1D6AF, 0x4D415448454D41544943414C20424F4C44204341504954414C20544845544120),
  (0x1D6B0, 0x4D415448454D41544943414C20424F4C44204341504954414C20494F544120),
  (0x1D6B1, 0x4D415448454D41544943414C20424F4C44204341504954414C204B4150504120),
  (0x1D6B2, 0x4D415448454D41544943414C20424F4C44204341504954414C204C414D444120),
  (0x1D6B3, 0x4D415448454D41544943414C20424F4C44204341504954414C204D5520),
  (0x1D6B4, 0x4D415448454D41544943414C20424F4C44204341504954414C204E5520),
  (0x1D6B5, 0x4D415448454D41544943414C20424F4C44204341504954414C20584920),
  (0x1D6B6, 0x4D415448454D41544943414C20424F4C44204341504954414C204F4D4943524F4E20),
  (0x1D6B7, 0x4D415448454D41544943414C20424F4C44204341504954414C20504920),
  (0x1D6B8, 0x4D415448454D41544943414C20424F4C44204341504954414C2052484F20),
  (0x1D6B9, 0x4D415448454D41544943414C20424F4C44204341504954414C2054484554412053594D424F4C20),
  (0x1D6BA, 0x4D415448454D41544943414C20424F4C44204341504954414C205349474D4120),
  (0x1D6BB, 0x4D415448454D41544943414C20424F4C44204341504954414C2054415520),
  (0x1D6BC, 0x4D415448454D41544943414C20424F4C44204341504954414C20555053494C4F4E20),
  (0x1D6BD, 0x4D415448454D41544943414C20424F4C44204341504954414C2050484920),
  (0x1D6BE, 0x4D415448454D41544943414C20424F4C44204341504954414C2043484920),
  (0x1D6BF, 0x4D415448454D41544943414C20424F4C44204341504954414C2050534920),
  (0x1D6C0, 0x4D415448454D41544943414C20424F4C44204341504954414C204F4D45474120),
  (0x1D6C1, 0x4D415448454D41544943414C20424F4C44204E41424C4120),
  (0x1D6C2, 0x4D415448454D41544943414C20424F4C4420534D414C4C20414C50484120),
  (0x1D6C3, 0x4D415448454D41544943414C20424F4C4420534D414C4C204245544120),
  (0x1D6C4, 0x4D415448454D41544943414C20424F4C4420534D414C4C2047414D4D4120),
  (0x1D6C5, 0x4D415448454D41544943414C20424F4C4420534D414C4C2044454C544120),
  (0x1D6C6, 0x4D415448454D41544943414C20424F4C4420534D414C4C20455053494C4F4E20),
  (0x1D6C7, 0x4D415448454D41544943414C20424F4C4420534D414C4C205A45544120)]
def names_425 : List (Nat × Nat) := [
  (0x1D6C8, 0x4D415448454D41544943414C20424F4C4420534D414C4C2045544120),
  (0x1D6C9, 0x4D415448454D41544943414C20424F4C4420534D414C4C20544845544120),
  (0x1D6CA, 0x4D415448454D41544943414C20424F4C4420534D414C4C20494F544120),
  (0x1D6CB, 0x4D415448454D41544943414C20424F4C4420534D414C4C204B4150504120),
  (0x1D6CC, 0x4D415448454D41544943414C20424F4C4420534D414C4C204C414D444120),
  (0x1D6CD, 0x4D415448454D41544943414C20424F4C4420534D414C4C204D5520),
  (0x1D6CE, 0x4D415448454D41544943414C20424F4C4420534D414C4C204E5520),
  (0x1D6CF, 0x4D415448454D41544943414C20424F4C4420534D414C4C20584920),
  (0x1D6D0, 0x4D415448454D41544943414C20424F4C4420534D414C4C204F4D4943524F4E20),
  (0x1D6D1, 0x4D415448454D41544943414C20424F4C4420534D414C4C20504920),
  (0x1D6D2, 0x4D415448454D41544943414C20424F4C4420534D414C4C2052484F20),
  (0x1D6D3, 0x4D415448454D41544943414C20424F4C4420534D414C4C2046494E414C205349474D4120),
  (0x1D6D4, 0x4D415448454D41544943414C20424F4C4420534D414C4C205349474D4120),
  (0x1D6D5, 0x4D415448454D41544943414C20424F4C4420534D414C4C2054415520),
  (0x1D6D6, 0x4D415448454D41544943414C20424F4C4420534D414C4C20555053494C4F4E20),
  (0x1D6D7, 0x4D415448454D41544943414C20424F4C4420534D414C4C2050484920),
  (0x1D6D8, 0x4D415448454D41544943414C20424F4C4420534D414C4C2043484920),
  (0x1D6D9, 0x4D415448454D41544943414C20424F4C4420534D414C4C2050534920),
  (0x1D6DA, 0x4D415448454D41544943414C20424F4C4420534D414C4C204F4D45474120),
  (0x1D6DB, 0x4D415448454D41544943414C20424F4C44205041525449414C20444946464552454E5449414C20),
  (0x1D6DC, 0x4D415448454D41544943414C20424F4C4420455053494C4F4E2053594D424F4C20),
  (0x1D6DD, 0x4D415448454D41544943414C20424F4C442054484554412053594D424F4C20),
  (0x1D6DE, 0x4D415448454D41544943414C20424F4C44204B415050412053594D424F4C20),
  (0x1D6DF, 0x4D415448454D41544943414C20424F4C44205048492053594D424F4C20),
  (0x1D6E0, 0x4D415448454D41544943414C20424F4C442052484F2053594D424F4C20),
  (0x1D6E1, 0x4D415448454D41544943414C20424F4C442050492053594D424F4C20),
  (0x1D6E2, 0x4D415448454D41544943414C204954414C4943204341504954414C20414C50484120),
  (0x1D6E3, 0x4D415448454D41544943414C204954414C4943204341504954414C204245544120),
  (0x1D6E4, 0x4D415448454D41544943414C204954414C4943204341504954414C2047414D4D4120),
  (0x1D6E5, 0x4D415448454D41544943414C204954414C4943204341504954414C2044454C544120),
  (0x1D6E6, 0x4D415448454D41544943414C204954414C4943204341504954414C20455053494C4F4E20),
  (0x1D6E7, 0x4D415448454D41544943414C204954414C4943204341504954414C205A45544120),
  (0x1D6E8, 0x4D415448454D41544943414C204954414C4943204341504954414C2045544120),
  (0x1D6E9, 0x4D415448454D41544943414C204954414C4943204341504954414C20544845544120),
  (0x1D6EA, 0x4D415448454D41544943414C204954414C4943204341504954414C20494F544120),
  (0x1D6EB, 0x4D415448454D41544943414C204954414C4943204341504954414C204B4150504120),
  (0x1D6EC, 0x4D415448454D41544943414C204954414C4943204341504954414C204C414D444120),
  (0x1D6ED, 0x4D415448454D41544943414C204954414C4943204341504954414C204D5520),
  (0x1D6EE, 0x4D415448454D41544943414C204954414C4943204341504954414C204E5520),
  (0x1D6EF, 0x4D415448454D41544943414C204954414C4943204341504954414C20584920),
  (0x1D6F0, 0x4D415448454D41544943414C204954414C4943204341504954414C204F4D4943524F4E20),
  (0x1D6F1, 0x4D415448454D41544943414C204954414C4943204341504954414C20504920),
  (0x1D6F2, 0x4D415448454D41544943414C204954414C4943204341504954414C2052484F20),
  (0x1D6F3, 0x4D415448454D41544943414C204954414C4943204341504954414C2054484554412053594D424F4C20),
  (0x1D6F4, 0x4D415448454D41544943414C204954414C4943204341504954414C205349474D4120),
  (0x1D6F5, 0x4D415448454D41544943414C204954414C4943204341504954414C2054415520),
  (0x1D6F6, 0x4D415448454D41544943414C204954414C4943204341504954414C20555053494C4F4E20),
  (0x1D6F7, 0x4D415448454D41544943414C204954414C4943204341504954414C2050484920),
  (0x1D6F8, 0x4D415448454D41544943414C204954414C4943204341504954414C2043484920),
  (0x1D6F9, 0x4D415448454D41544943414C204954414C4943204341504954414C2050534920),
  (0x1D6FA, 0x4D415448454D41544943414C204954414C4943204341504954414C204F4D45474120),
  (0x1D6FB, 0x4D415448454D41544943414C204954414C4943204E41424C4120),
  (0x1D6FC, 0x4D415448454D41544943414C204954414C494320534D414C4C20414C50484120),
  (0x1D6FD, 0x4D415448454D41544943414C204954414C494320534D414C4C204245544120),
  (0x1D6FE, 0x4D415448454D41544943414C204954414C494320534D414C4C2047414D4D4120),
  (0x1D6FF, 0x4D415448454D41544943414C204954414C494320534D414C4C2044454C544120),
  (0x1D700, 0x4D415448454D41544943414C204954414C494320534D414C4C20455053494C4F4E20),
  (0x1D701, 0x4D415448454D41544943414C204954414C494320534D414C4C205A45544120),
  (0x1D702, 0x4D415448454D41544943414C204954414C494320534D414C4C2045544120),
  (0x1D703, 0x4D415448454D41544943414C204954414C494320534D414C4C20544845544120),
  (0x1D704, 0x4D415448454D41544943414C204954414C494320534D414C4C20494F544120),
  (0x1D705, 0x4D415448454D41544943414C204954414C494320534D414C4C204B4150504120),
  (0x1D706, 0x4D415448454D41544943414C204954414C494320534D414C4C204C414D444120),
  (0x1D707, 0x4D415448454D41544943414C204954414C494320534D414C4C204D5520)]
def names_426 : List (Nat × Nat) := [
  (0x1D708, 0x4D415448454D41544943414C204954414C494320534D414C4C204E5520),
  (0x1D709, 0x4D415448454D41544943414C204954414C494320534D414C4C20584920),
  (0x1D70A, 0x4D415448454D41544943414C204954414C494320534D414C4C204F4D4943524F4E20),
  (0x1D70B, 0x4D415448454D41544943414C204954414C494320534D414C4C20504920),
  (0x1D70C, 0x4D415448454D41544943414C204954414C494320534D414C4C2052484F20),
  (0x1D70D, 0x4D415448454D41544943414C204954414C494320534D414C4C2046494E414C205349474D4120),
  (0x1D70E, 0x4D415448454D41544943414C204954414C494320534D414C4C205349474D4120),
  (0x1D70F, 0x4D415448454D41544943414C204954414C494320534D414C4C2054415520),
  (0x1D710, 0x4D415448454D41544943414C204954414C494320534D414C4C20555053494C4F4E20),
  (0x1D711, 0x4D415448454D41544943414C204954414C494320534D414C4C2050484920),
  (0x1D712, 0x4D415448454D41544943414C204954414C494320534D414C4C2043484920),
  (0x1D713, 0x4D415448454D41544943414C204954414C494320534D414C4C2050534920),
  (0x1D714, 0x4D415448454D41544943414C204954414C494320534D414C4C204F4D45474120),
  (0x1D715, 0x4D415448454D41544943414C204954414C4943205041525449414C20444946464552454E5449414C20),
  (0x1D716, 0x4D415448454D41544943414C204954414C494320455053494C4F4E2053594D424F4C20),
  (0x1D717, 0x4D415448454D41544943414C204954414C49432054484554412053594D424F4C20),
  (0x1D718, 0x4D415448454D41544943414C204954414C4943204B415050412053594D424F4C20),
  (0x1D719, 0x4D415448454D41544943414C204954414C4943205048492053594D424F4C20),
  (0x1D71A, 0x4D415448454D41544943414C204954414C49432052484F2053594D424F4C20),
  (0x1D71B, 0x4D415448454D41544943414C204954414C49432050492053594D424F4C20),
  (0x1D71C, 0x4D415448454D41544943414C20424F4C44204954414C4943204341504954414C20414C50484120),
  (0x1D71D, 0x4D415448454D41544943414C20424F4C44204954414C4943204341504954414C204245544120),
  (0x1D71E, 0x4D415448454D41544943414C20424F4C44204954414C4943204341504954414C2047414D4D4120),
  (0x1D71F, 0x4D415448454D41544943414C20424F4C44204954414C4943204341504954414C2044454C544120),
  (0x1D720, 0x4D415448454D41544943414C20424F4C44204954414C4943204341504954414C20455053494C4F4E20),
  (0x1D721, 0x4D415448454D41544943414C20424F4C44204954414C4943204341504954414C205A45544120),
  (0x1D722, 0x4D415448454D41544943414C20424F4C44204954414C4943204341504954414C2045544120),
  (0x1D723, 0x4D415448454D41544943414C20424F4C44204954414C4943204341504954414C20544845544120),
  (0x1D724, 0x4D415448454D41544943414C20424F4C44204954414C4943204341504954414C20494F544120),
  (0x1D725, 0x4D415448454D41544943414C20424F4C44204954414C4943204341504954414C204B4150504120),
  (0x1D726, 0x4D415448454D41544943414C20424F4C44204954414C4943204341504954414C204C414D444120),
  (0x1D727, 0x4D415448454D41544943414C20424F4C44204954414C4943204341504954414C204D5520),
  (0x1D728, 0x4D415448454D41544943414C20424F4C44204954414C4943204341504954414C204E5520),
  (0x1D729, 0x4D415448454D41544943414C20424F4C44204954414C4943204341504954414C20584920),
  (0x1D72A, 0x4D415448454D41544943414C20424F4C44204954414C4943204341504954414C204F4D4943524F4E20),
  (0x1D72B, 0x4D415448454D41544943414C20424F4C44204954414C4943204341504954414C20504920),
  (0x1D72C, 0x4D415448454D41544943414C20424F4C44204954414C4943204341504954414C2052484F20),
  (0x1D72D, 0x4D415448454D41544943414C20424F4C44204954414C4943204341504954414C2054484554412053594D424F4C20),
  (0x1D72E, 0x4D415448454D41544943414C20424F4C44204954414C4943204341504954414C205349474D4120),
  (0x1D72F, 0x4D415448454D41544943414C20424F4C44204954414C4943204341504954414C2054415520),
  (0x1D730, 0x4D415448454D41544943414C20424F4C44204954414C4943204341504954414C20555053494C4F4E20),
  (0x1D731, 0x4D415448454D41544943414C20424F4C44204954414C4943204341504954414C2050484920),
  (0x1D732, 0x4D415448454D41544943414C20424F4C44204954414C4943204341504954414C2043484920),
  (0x1D733, 0x4D415448454D41544943414C20424F4C44204954414C4943204341504954414C2050534920),
  (0x1D734, 0x4D415448454D41544943414C20424F4C44204954414C4943204341504954414C204F4D45474120),
  (0x1D735, 0x4D415448454D41544943414C20424F4C44204954414C4943204E41424C4120),
  (0x1D736, 0x4D415448454D41544943414C20424F4C44204954414C494320534D414C4C20414C50484120),
  (0x1D737, 0x4D415448454D41544943414C20424F4C44204954414C494320534D414C4C204245544120),
  (0x1D738, 0x4D415448454D41544943414C20424F4C44204954414C494320534D414C4C2047414D4D4120),
  (0x1D739, 0x4D415448454D41544943414C20424F4C44204954414C494320534D414C4C2044454C544120),
  (0x1D73A, 0x4D415448454D41544943414C20424F4C44204954414C494320534D414C4C20455053494C4F4E20),
  (0x1D73B, 0x4D415448454D41544943414C20424F4C44204954414C494320534D414C4C205A45544120),
  (0x1D73C, 0x4D415448454D41544943414C20424F4C44204954414C494320534D414C4C2045544120),
  (0x1D73D, 0x4D415448454D41544943414C20424F4C44204954414C494320534D414C4C20544845544120),
  (0x1D73E, 0x4D415448454D41544943414C20424F4C44204954414C494320534D414C4C20494F544120),
  (0x1D73F, 0x4D415448454D41544943414C20424F4C44204954414C494320534D414C4C204B4150504120),
  (0x1D740, 0x4D415448454D41544943414C20424F4C44204954414C494320534D414C4C204C414D444120),
  (0x1D741, 0x4D415448454D41544943414C20424F4C44204954414C494320534D414C4C204D5520),
  (0x1D742, 0x4D415448454D41544943414C20424F4C44204954414C494320534D414C4C204E5520),
  (0x1D743, 0x4D415448454D41544943414C20424F4C44204954414C494320534D414C4C20584920),
  (0x1D744, 0x4D415448454D41544943414C20424F4C44204954414C494320534D414C4C204F4D4943524F4E20),
  (0x1D745, 0x4D415448454D41544943414C20424F4C44204954414C494320534D414C4C20504920),
  (0x1D746, 0x4D415448454D41544943414C20424F4C44204954414C494320534D414C4C2052484F20),
  (0x1D747, 0x4D415448454D41544943414C20424F4C44204954414C494320534D414C4C2046494E414C205349474D4120)]
def names_427 : List (Nat × Nat) := [
  (0x1D748, 0x4D415448454D41544943414C20424F4C44204954414C494320534D414C4C205349474D4120),
  (0x1D749, 0x4D415448454D41544943414C20424F4C44204954414C494320534D414C4C2054415520),
  (0x1D74A, 0x4D415448454D41544943414C20424F4C44204954414C494320534D414C4C20555053494C4F4E20),
  (0x1D74B, 0x4D415448454D41544943414C20424F4C44204954414C494320534D414C4C2050484920),
  (0x1D74C, 0x4D415448454D41544943414C20424F4C44204954414C494320534D414C4C2043484920),
  (0x1D74D, 0x4D415448454D41544943414C20424F4C44204954414C494320534D414C4C2050534920),
  (0x1D74E, 0x4D415448454D41544943414C20424F4C44204954414C494320534D414C4C204F4D45474120),
  (0x1D74F, 0x4D415448454D41544943414C20424F4C44204954414C4943205041525449414C20444946464552454E5449414C20),
  (0x1D750, 0x4D415448454D41544943414C20424F4C44204954414C494320455053494C4F4E2053594D424F4C20),
  (0x1D751, 0x4D415448454D41544943414C20424F4C44204954414C49432054484554412053594D424F4C20),
  (0x1D752, 0x4D415448454D41544943414C20424F4C44204954414C4943204B415050412053594D424F4C20),
  (0x1D753, 0x4D415448454D41544943414C20424F4C44204954414C4943205048492053594D424F4C20),
  (0x1D754, 0x4D415448454D41544943414C20424F4C44204954414C49432052484F2053594D424F4C20),
  (0x1D755, 0x4D415448454D41544943414C20424F4C44204954414C49432050492053594D424F4C20),
  (0x1D756, 0x4D415448454D41544943414C2053414E532D534552494620424F4C44204341504954414C20414C50484120),
  (0x1D757, 0x4D415448454D41544943414C2053414E532D534552494620424F4C44204341504954414C204245544120),
  (0x1D758, 0x4D415448454D41544943414C2053414E532D534552494620424F4C44204341504954414C2047414D4D4120),
  (0x1D759, 0x4D415448454D41544943414C2053414E532D534552494620424F4C44204341504954414C2044454C544120),
  (0x1D75A, 0x4D415448454D41544943414C2053414E532D534552494620424F4C44204341504954414C20455053494C4F4E20),
  (0x1D75B, 0x4D415448454D41544943414C2053414E532D534552494620424F4C44204341504954414C205A45544120),
  (0x1D75C, 0x4D415448454D41544943414C2053414E532D534552494620424F4C44204341504954414C2045544120),
  (0x1D75D, 0x4D415448454D41544943414C2053414E532D534552494620424F4C44204341504954414C20544845544120),
  (0x1D75E, 0x4D415448454D41544943414C2053414E532D534552494620424F4C44204341504954414C20494F544120),
  (0x1D75F, 0x4D415448454D41544943414C2053414E532D534552494620424F4C44204341504954414C204B4150504120),
  (0x1D760, 0x4D415448454D41544943414C2053414E532D534552494620424F4C44204341504954414C204C414D444120),
  (0x1D761, 0x4D415448454D41544943414C2053414E532D534552494620424F4C44204341504954414C204D5520),
  (0x1D762, 0x4D415448454D41544943414C2053414E532D534552494620424F4C44204341504954414C204E5520),
  (0x1D763, 0x4D415448454D41544943414C2053414E532D534552494620424F4C44204341504954414C20584920),
  (0x1D764, 0x4D415448454D41544943414C2053414E532D534552494620424F4C44204341504954414C204F4D4943524F4E20),
  (0x1D765, 0x4D415448454D41544943414C2053414E532D534552494620424F4C44204341504954414C20504920),
  (0x1D766, 0x4D415448454D41544943414C2053414E532D534552494620424F4C44204341504954414C2052484F20),
  (0x1D767, 0x4D415448454D41544943414C2053414E532D534552494620424F4C44204341504954414C2054484554412053594D424F4C20),
  (0x1D768, 0x4D415448454D41544943414C2053414E532D534552494620424F4C44204341504954414C205349474D4120),
  (0x1D769, 0x4D415448454D41544943414C2053414E532D534552494620424F4C44204341504954414C2054415520),
  (0x1D76A, 0x4D415448454D41544943414C2053414E532D534552494620424F4C44204341504954414C20555053494C4F4E20),
  (0x1D76B, 0x4D415448454D41544943414C2053414E532D534552494620424F4C44204341504954414C2050484920),
  (0x1D76C, 0x4D415448454D41544943414C2053414E532D534552494620424F4C44204341504954414C2043484920),
  (0x1D76D, 0x4D415448454D41544943414C2053414E532D534552494620424F4C44204341504954414C2050534920),
  (0x1D76E, 0x4D415448454D41544943414C2053414E532D534552494620424F4C44204341504954414C204F4D45474120),
  (0x1D76F, 0x4D415448454D41544943414C2053414E532D534552494620424F4C44204E41424C4120),
  (0x1D770, 0x4D415448454D41544943414C2053414E532D534552494620424F4C4420534D414C4C20414C50484120),
  (0x1D771, 0x4D415448454D41544943414C2053414E532D534552494620424F4C4420534D414C4C204245544120),
  (0x1D772, 0x4D415448454D41544943414C2053414E532D534552494620424F4C4420534D414C4C2047414D4D4120),
  (0x1D773, 0x4D415448454D41544943414C2053414E532D534552494620424F4C4420534D414C4C2044454C544120),
  (0x1D774, 0x4D415448454D41544943414C2053414E532D534552494620424F4C4420534D414C4C20455053494C4F4E20),
  (0x1D775, 0x4D415448454D41544943414C2053414E532D534552494620424F4C4420534D414C4C205A45544120),
  (0x1D776, 0x4D415448454D41544943414C2053414E532D534552494620424F4C4420534D414C4C2045544120),
  (0x1D777, 0x4D415448454D41544943414C2053414E532D534552494620424F4C4420534D414C4C20544845544120),
  (0x1D778, 0x4D415448454D41544943414C2053414E532D534552494620424F4C4420534D414C4C20494F544120),
  (0x1D779, 0x4D415448454D41544943414C2053414E532D534552494620424F4C4420534D414C4C204B4150504120),
  (0x1D77A, 0x4D415448454D41544943414C2053414E532D534552494620424F4C4420534D414C4C204C414D444120),
  (0x1D77B, 0x4D415448454D41544943414C2053414E532D534552494620424F4C4420534D414C4C204D5520),
  (0x1D77C, 0x4D415448454D41544943414C2053414E532D534552494620424F4C4420534D414C4C204E5520),
  (0x1D77D, 0x4D415448454D41544943414C2053414E532D534552494620424F4C4420534D414C4C20584920),
  (0x1D77E, 0x4D415448454D41544943414C2053414E532D534552494620424F4C4420534D414C4C204F4D4943524F4E20),
  (0x1D77F, 0x4D415448454D41544943414C2053414E532D534552494620424F4C4420534D414C4C20504920),
  (0x1D780, 0x4D415448454D41544943414C2053414E532D534552494620424F4C4420534D414C4C2052484F20),
  (0x1D781, 0x4D415448454D41544943414C2053414E532D534552494620424F4C4420534D414C4C2046494E414C205349474D4120),
  (0x1D782, 0x4D415448454D41544943414C2053414E532D534552494620424F4C4420534D414C4C205349474D4120),
  (0x1D783, 0x4D415448454D41544943414C2053414E532D534552494620424F4C4420534D414C4C2054415520),
  (0x1D784, 0x4D415448454D41544943414C2053414E532D534552494620424F4C4420534D414C4C20555053494C4F4E20),
  (0x1D785, 0x4D415448454D41544943414C2053414E532D534552494620424F4C4420534D414C4C2050484920),
  (0x1D786, 0x4D415448454D41544943414C2053414E532D534552494620424F4C4420534D414C4C2043484920),
  (0x1D787, 0x4D415448454D41544943414C2053414E532D534552494620424F4C4420534D414C4C2050534920)]
def names_428 : List (Nat × Nat) := [
  (0x1D788, 0x4D415448454D41544943414C2053414E532D534552494620424F4C4420534D414C4C204F4D45474120),
  (0x1D789, 0x4D415448454D41544943414C2053414E532D534552494620424F4C44205041525449414C20444946464552454E5449414C20),
  (0x1D78A, 0x4D415448454D41544943414C2053414E532D534552494620424F4C4420455053494C4F4E2053594D424F4C20),
  (0x1D78B, 0x4D415448454D41544943414C2053414E532D534552494620424F4C442054484554412053594D424F4C20),
  (0x1D78C, 0x4D415448454D41544943414C2053414E532D534552494620424F4C44204B415050412053594D424F4C20),
  (0x1D78D, 0x4D415448454D41544943414C2053414E532D534552494620424F4C44205048492053594D424F4C20),
  (0x1D78E, 0x4D415448454D41544943414C2053414E532D534552494620424F4C442052484F2053594D424F4C20),
  (0x1D78F, 0x4D415448454D41544943414C2053414E532D534552494620424F4C442050492053594D424F4C20),
  (0x1D790, 0x4D415448454D41544943414C2053414E532D534552494620424F4C44204954414C4943204341504954414C20414C50484120),
  (0x1D791, 0x4D415448454D41544943414C2053414E532D534552494620424F4C44204954414C4943204341504954414C204245544120),
  (0x1D792, 0x4D415448454D41544943414C2053414E532D534552494620424F4C44204954414C4943204341504954414C2047414D4D4120),
  (0x1D793, 0x4D415448454D41544943414C2053414E532D534552494620424F4C44204954414C4943204341504954414C2044454C544120),
  (0x1D794, 0x4D415448454D41544943414C2053414E532D534552494620424F4C44204954414C4943204341504954414C20455053494C4F4E20),
  (0x1D795, 0x4D415448454D41544943414C2053414E532D534552494620424F4C44204954414C4943204341504954414C205A45544120),
  (0x1D796, 0x4D415448454D41544943414C2053414E532D534552494620424F4C44204954414C4943204341504954414C2045544120),
  (0x1D797, 0x4D415448454D41544943414C2053414E532D534552494620424F4C44204954414C4943204341504954414C20544845544120),
  (0x1D798, 0x4D415448454D41544943414C2053414E532D534552494620424F4C44204954414C4943204341504954414C20494F544120),
  (0x1D799, 0x4D415448454D41544943414C2053414E532D534552494620424F4C44204954414C4943204341504954414C204B4150504120),
  (0x1D79A, 0x4D415448454D41544943414C2053414E532D534552494620424F4C44204954414C4943204341504954414C204C414D444120),
  (0x1D79B, 0x4D415448454D41544943414C2053414E532D534552494620424F4C44204954414C4943204341504954414C204D5520),
  (0x1D79C, 0x4D415448454D41544943414C2053414E532D534552494620424F4C44204954414C4943204341504954414C204E5520),
  (0x1D79D, 0x4D415448454D41544943414C2053414E532D534552494620424F4C44204954414C4943204341504954414C20584920),
  (0x1D79E, 0x4D415448454D41544943414C2053414E532D534552494620424F4C44204954414C4943204341504954414C204F4D4943524F4E20),
  (0x1D79F, 0x4D415448454D41544943414C2053414E532D534552494620424F4C44204954414C4943204341504954414C20504920),
  (0x1D7A0, 0x4D415448454D41544943414C2053414E532D534552494620424F4C44204954414C4943204341504954414C2052484F20),
  (0x1D7A1, 0x4D415448454D41544943414C2053414E532D534552494620424F4C44204954414C4943204341504954414C2054484554412053594D424F4C20),
  (0x1D7A2, 0x4D415448454D41544943414C2053414E532D534552494620424F4C44204954414C4943204341504954414C205349474D4120),
  (0x1D7A3, 0x4D415448454D41544943414C2053414E532D534552494620424F4C44204954414C4943204341504954414C2054415520),
  (0x1D7A4, 0x4D415448454D41544943414C2053414E532D534552494620424F4C44204954414C4943204341504954414C20555053494C4F4E20),
  (0x1D7A5, 0x4D415448454D41544943414C2053414E532D534552494620424F4C44204954414C4943204341504954414C2050484920),
  (0x1D7A6, 0x4D415448454D41544943414C2053414E532D534552494620424F4C44204954414C4943204341504954414C2043484920),
  (0x1D7A7, 0x4D415448454D41544943414C2053414E532D534552494620424F4C44204954414C4943204341504954414C2050534920),
  (0x1D7A8, 0x4D415448454D41544943414C2053414E532D534552494620424F4C44204954414C4943204341504954414C204F4D45474120),
  (0x1D7A9, 0x4D415448454D41544943414C2053414E532D534552494620424F4C44204954414C4943204E41424C4120),
  (0x1D7AA, 0x4D415448454D41544943414C2053414E532D534552494620424F4C44204954414C494320534D414C4C20414C50484120),
  (0x1D7AB, 0x4D415448454D41544943414C2053414E532D534552494620424F4C44204954414C494320534D414C4C204245544120),
  (0x1D7AC, 0x4D415448454D41544943414C2053414E532D534552494620424F4C44204954414C494320534D414C4C2047414D4D4120),
  (0x1D7AD, 0x4D415448454D41544943414C2053414E532D534552494620424F4C44204954414C494320534D414C4C2044454C544120),
  (0x1D7AE, 0x4D415448454D41544943414C2053414E532D534552494620424F4C44204954414C494320534D414C4C20455053494C4F4E20),
  (0x1D7AF, 0x4D415448454D41544943414C2053414E532D534552494620424F4C44204954414C494320534D414C4C205A45544120),
  (0x1D7B0, 0x4D415448454D41544943414C2053414E532D534552494620424F4C44204954414C494320534D414C4C2045544120),
  (0x1D7B1, 0x4D415448454D41544943414C2053414E532D534552494620424F4C44204954414C494320534D414C4C20544845544120),
  (0x1D7B2, 0x4D415448454D41544943414C2053414E532D534552494620424F4C44204954414C494320534D414C4C20494F544120),
  (0x1D7B3, 0x4D415448454D41544943414C2053414E532D534552494620424F4C44204954414C494320534D414C4C204B4150504120),
  (0x1D7B4, 0x4D415448454D41544943414C2053414E532D534552494620424F4C44204954414C494320534D414C4C204C414D444120),
  (0x1D7B5, 0x4D415448454D41544943414C2053414E532D534552494620424F4C44204954414C494320534D414C4C204D5520),
  (0x1D7B6, 0x4D415448454D41544943414C2053414E532D534552494620424F4C44204954414C494320534D414C4C204E5520),
  (0x1D7B7, 0x4D415448454D41544943414C2053414E532D534552494620424F4C44204954414C494320534D414C4C20584920),
  (0x1D7B8, 0x4D415448454D41544943414C2053414E532D534552494620424F4C44204954414C494320534D414C4C204F4D4943524F4E20),
  (0x1D7B9, 0x4D415448454D41544943414C2053414E532D534552494620424F4C44204954414C494320534D414C4C20504920),
  (0x1D7BA, 0x4D415448454D41544943414C2053414E532D534552494620424F4C44204954414C494320534D414C4C2052484F20),
  (0x1D7BB, 0x4D415448454D41544943414C2053414E532D534552494620424F4C44204954414C494320534D414C4C2046494E414C205349474D4120),
  (0x1D7BC, 0x4D415448454D41544943414C2053414E532D534552494620424F4C44204954414C494320534D414C4C205349474D4120),
  (0x1D7BD, 0x4D415448454D41544943414C2053414E532D534552494620424F4C44204954414C494320534D414C4C2054415520),
  (0x1D7BE, 0x4D415448454D41544943414C2053414E532D534552494620424F4C44204954414C494320534D414C4C20555053494C4F4E20),
  (0x1D7BF, 0x4D415448454D41544943414C2053414E532D534552494620424F4C44204954414C494320534D414C4C2050484920),
  (0x1D7C0, 0x4D415448454D41544943414C2053414E532D534552494620424F4C44204954414C494320534D414C4C2043484920),
  (0x1D7C1, 0x4D415448454D41544943414C2053414E532D534552494620424F4C44204954414C494320534D414C4C2050534920),
  (0x1D7C2, 0x4D415448454D41544943414C2053414E532D534552494620424F4C44204954414C494320534D414C4C204F4D45474120),
  (0x1D7C3, 0x4D415448454D41544943414C2053414E532D534552494620424F4C44204954414C4943205041525449414C20444946464552454E5449414C20),
  (0x1D7C4, 0x4D415448454D41544943414C2053414E532D534552494620424F4C44204954414C494320455053494C4F4E2053594D424F4C20),
  (0x1D7C5, 0x4D415448454D41544943414C2053414E532D534552494620424F4C44204954414C49432054484554412053594D424F4C20),
  (0x1D7C6, 0x4D415448454D41544943414C2053414E532D534552494620424F4C44204954414C4943204B415050412053594D424F4C20),
  (0x1D7C7, 0x4D415448454D41544943414C2053414E532D534552494620424F4C44204954414C4943205048492053594D424F4C20)]
def names_429 : List (Nat × Nat) := [
  (0x1D7C8, 0x4D415448454D41544943414C2053414E532D534552494620424F4C44204954414C49432052484F2053594D424F4C20),
  (0x1D7C9, 0x4D415448454D41544943414C2053414E532D534552494620424F4C44204954414C49432050492053594D424F4C20),
  (0x1D7CA, 0x4D415448454D41544943414C20424F4C44204341504954414C20444947414D4D4120),
  (0x1D7CB, 0x4D415448454D41544943414C20424F4C4420534D414C4C20444947414D4D4120),
  (0x1D7CE, 0x4D415448454D41544943414C20424F4C44204449474954205A45524F20),
  (0x1D7CF, 0x4D415448454D41544943414C20424F4C44204449474954204F4E4520),
  (0x1D7D0, 0x4D415448454D41544943414C20424F4C442044494749542054574F20),
  (0x1D7D1, 0x4D415448454D41544943414C20424F4C4420444947495420544852454520),
  (0x1D7D2, 0x4D415448454D41544943414C20424F4C4420444947495420464F555220),
  (0x1D7D3, 0x4D415448454D41544943414C20424F4C44204449474954204649564520),
  (0x1D7D4, 0x4D415448454D41544943414C20424F4C442044494749542053495820),
  (0x1D7D5, 0x4D415448454D41544943414C20424F4C4420444947495420534556454E20),
  (0x1D7D6, 0x4D415448454D41544943414C20424F4C4420444947495420454947485420),
  (0x1D7D7, 0x4D415448454D41544943414C20424F4C44204449474954204E494E4520),
  (0x1D7D8, 0x4D415448454D41544943414C20444F55424C452D53545255434B204449474954205A45524F20),
  (0x1D7D9, 0x4D415448454D41544943414C20444F55424C452D53545255434B204449474954204F4E4520),
  (0x1D7DA, 0x4D415448454D41544943414C20444F55424C452D53545255434B2044494749542054574F20),
  (0x1D7DB, 0x4D415448454D41544943414C20444F55424C452D53545255434B20444947495420544852454520),
  (0x1D7DC, 0x4D415448454D41544943414C20444F55424C452D53545255434B20444947495420464F555220),
  (0x1D7DD, 0x4D415448454D41544943414C20444F55424C452D53545255434B204449474954204649564520),
  (0x1D7DE, 0x4D415448454D41544943414C20444F55424C452D53545255434B2044494749542053495820),
  (0x1D7DF, 0x4D415448454D41544943414C20444F55424C452D53545255434B20444947495420534556454E20),
  (0x1D7E0, 0x4D415448454D41544943414C20444F55424C452D53545255434B20444947495420454947485420),
  (0x1D7E1, 0x4D415448454D41544943414C20444F55424C452D53545255434B204449474954204E494E4520),
  (0x1D7E2, 0x4D415448454D41544943414C2053414E532D5345524946204449474954205A45524F20),
  (0x1D7E3, 0x4D415448454D41544943414C2053414E532D5345524946204449474954204F4E4520),
  (0x1D7E4, 0x4D415448454D41544943414C2053414E532D53455249462044494749542054574F20),
  (0x1D7E5, 0x4D415448454D41544943414C2053414E532D534552494620444947495420544852454520),
  (0x1D7E6, 0x4D415448454D41544943414C2053414E532D534552494620444947495420464F555220),
  (0x1D7E7, 0x4D415448454D41544943414C2053414E532D5345524946204449474954204649564520),
  (0x1D7E8, 0x4D415448454D41544943414C2053414E532D53455249462044494749542053495820),
  (0x1D7E9, 0x4D415448454D41544943414C2053414E532D534552494620444947495420534556454E20),
  (0x1D7EA, 0x4D415448454D41544943414C2053414E532D534552494620444947495420454947485420),
  (0x1D7EB, 0x4D415448454D41544943414C2053414E532D5345524946204449474954204E494E4520),
  (0x1D7EC, 0x4D415448454D41544943414C2053414E532D534552494620424F4C44204449474954205A45524F20),
  (0x1D7ED, 0x4D415448454D41544943414C2053414E532D534552494620424F4C44204449474954204F4E4520),
  (0x1D7EE, 0x4D415448454D41544943414C2053414E532D534552494620424F4C442044494749542054574F20),
  (0x1D7EF, 0x4D415448454D41544943414C2053414E532D534552494620424F4C4420444947495420544852454520),
  (0x1D7F0, 0x4D415448454D41544943414C2053414E532D534552494620424F4C4420444947495420464F555220),
  (0x1D7F1, 0x4D415448454D41544943414C2053414E532D534552494620424F4C44204449474954204649564520),
  (0x1D7F2, 0x4D415448454D41544943414C2053414E532D534552494620424F4C442044494749542053495820),
  (0x1D7F3, 0x4D415448454D41544943414C2053414E532D534552494620424F4C4420444947495420534556454E20),
  (0x1D7F4, 0x4D415448454D41544943414C2053414E532D534552494620424F4C4420444947495420454947485420),
  (0x1D7F5, 0x4D415448454D41544943414C2053414E532D534552494620424F4C44204449474954204E494E4520),
  (0x1D7F6, 0x4D415448454D41544943414C204D4F4E4F5350414345204449474954205A45524F20),
  (0x1D7F7, 0x4D415448454D41544943414C204D4F4E4F5350414345204449474954204F4E4520),
  (0x1D7F8, 0x4D415448454D41544943414C204D4F4E4F53504143452044494749542054574F20),
  (0x1D7F9, 0x4D415448454D41544943414C204D4F4E4F535041434520444947495420544852454520),
  (0x1D7FA, 0x4D415448454D41544943414C204D4F4E4F535041434520444947495420464F555220),
  (0x1D7FB, 0x4D415448454D41544943414C204D4F4E4F5350414345204449474954204649564520),
  (0x1D7FC, 0x4D415448454D41544943414C204D4F4E4F53504143452044494749542053495820),
  (0x1D7FD, 0x4D415448454D41544943414C204D4F4E4F535041434520444947495420534556454E20),
  (0x1D7FE, 0x4D415448454D41544943414C204D4F4E4F535041434520444947495420454947485420),
  (0x1D7FF, 0x4D415448454D41544943414C204D4F4E4F5350414345204449474954204E494E4520),
  (0x1D800, 0x5349474E57524954494E472048414E442D4649535420494E44455820),
  (0x1D801, 0x5349474E57524954494E472048414E442D434952434C4520494E44455820),
  (0x1D802, 0x5349474E57524954494E472048414E442D43555020494E44455820),
  (0x1D803, 0x5349474E57524954494E472048414E442D4F56414C20494E44455820),
  (0x1D804, 0x5349474E57524954494E472048414E442D48494E474520494E44455820),
  (0x1D805, 0x5349474E57524954494E472048414E442D414E474C4520494E44455820),
  (0x1D806, 0x5349474E57524954494E472048414E442D4649535420494E4445582042454E5420),
  (0x1D807, 0x5349474E57524954494E472048414E442D434952434C4520494E4445582042454E5420),
  (0x1D808, 0x5349474E57524954494E472048414E442D46495354205448554D4220554E44455220494E4445582042454E5420),
  (0x1D809, 0x5349474E57524954494E472048414E442D4649535420494E44455820524149534544204B4E55434B4C4520)]
def names_430 : List (Nat × Nat) := [
  (0x1D80A, 0x5349474E57524954494E472048414E442D4649535420494E4445582043555050454420),
  (0x1D80B, 0x5349474E57524954494E472048414E442D4649535420494E4445582048494E47454420),
  (0x1D80C, 0x5349474E57524954494E472048414E442D4649535420494E4445582048494E474544204C4F5720),
  (0x1D80D, 0x5349474E57524954494E472048414E442D434952434C4520494E4445582048494E474520),
  (0x1D80E, 0x5349474E57524954494E472048414E442D4649535420494E444558204D4944444C4520),
  (0x1D80F, 0x5349474E57524954494E472048414E442D434952434C4520494E444558204D4944444C4520),
  (0x1D810, 0x5349474E57524954494E472048414E442D4649535420494E444558204D4944444C452042454E5420),
  (0x1D811, 0x5349474E57524954494E472048414E442D4649535420494E444558204D4944444C4520524149534544204B4E55434B4C455320),
  (0x1D812, 0x5349474E57524954494E472048414E442D4649535420494E444558204D4944444C452048494E47454420),
  (0x1D813, 0x5349474E57524954494E472048414E442D4649535420494E444558205550204D4944444C452048494E47454420),
  (0x1D814, 0x5349474E57524954494E472048414E442D4649535420494E4445582048494E474544204D4944444C4520555020),
  (0x1D815, 0x5349474E57524954494E472048414E442D4649535420494E444558204D4944444C4520434F4E4A4F494E454420),
  (0x1D816, 0x5349474E57524954494E472048414E442D4649535420494E444558204D4944444C4520434F4E4A4F494E454420494E4445582042454E5420),
  (0x1D817, 0x5349474E57524954494E472048414E442D4649535420494E444558204D4944444C4520434F4E4A4F494E4544204D4944444C452042454E5420),
  (0x1D818, 0x5349474E57524954494E472048414E442D4649535420494E444558204D4944444C4520434F4E4A4F494E45442043555050454420),
  (0x1D819, 0x5349474E57524954494E472048414E442D4649535420494E444558204D4944444C4520434F4E4A4F494E45442048494E47454420),
  (0x1D81A, 0x5349474E57524954494E472048414E442D4649535420494E444558204D4944444C452043524F5353454420),
  (0x1D81B, 0x5349474E57524954494E472048414E442D434952434C4520494E444558204D4944444C452043524F5353454420),
  (0x1D81C, 0x5349474E57524954494E472048414E442D46495354204D4944444C452042454E54204F56455220494E44455820),
  (0x1D81D, 0x5349474E57524954494E472048414E442D4649535420494E4445582042454E54204F564552204D4944444C4520),
  (0x1D81E, 0x5349474E57524954494E472048414E442D4649535420494E444558204D4944444C45205448554D4220),
  (0x1D81F, 0x5349474E57524954494E472048414E442D434952434C4520494E444558204D4944444C45205448554D4220),
  (0x1D820, 0x5349474E57524954494E472048414E442D4649535420494E444558204D4944444C45205354524149474854205448554D422042454E5420),
  (0x1D821, 0x5349474E57524954494E472048414E442D4649535420494E444558204D4944444C452042454E54205448554D4220535452414947485420),
  (0x1D822, 0x5349474E57524954494E472048414E442D4649535420494E444558204D4944444C45205448554D422042454E5420),
  (0x1D823, 0x5349474E57524954494E472048414E442D4649535420494E444558204D4944444C452048494E47454420535052454144205448554D42205349444520),
  (0x1D824, 0x5349474E57524954494E472048414E442D4649535420494E444558205550204D4944444C452048494E474544205448554D42205349444520),
  (0x1D825, 0x5349474E57524954494E472048414E442D4649535420494E444558205550204D4944444C452048494E474544205448554D4220434F4E4A4F494E454420),
  (0x1D826, 0x5349474E57524954494E472048414E442D4649535420494E4445582048494E474544204D4944444C45205550205448554D42205349444520),
  (0x1D827, 0x5349474E57524954494E472048414E442D4649535420494E444558204D4944444C4520555020535052454144205448554D4220464F525741524420),
  (0x1D828, 0x5349474E57524954494E472048414E442D4649535420494E444558204D4944444C45205448554D422043555050454420),
  (0x1D829, 0x5349474E57524954494E472048414E442D4649535420494E444558204D4944444C45205448554D4220434952434C454420),
  (0x1D82A, 0x5349474E57524954494E472048414E442D4649535420494E444558204D4944444C45205448554D4220484F4F4B454420),
  (0x1D82B, 0x5349474E57524954494E472048414E442D4649535420494E444558204D4944444C45205448554D422048494E47454420),
  (0x1D82C, 0x5349474E57524954494E472048414E442D46495354205448554D42204245545745454E20494E444558204D4944444C4520535452414947485420),
  (0x1D82D, 0x5349474E57524954494E472048414E442D4649535420494E444558204D4944444C4520434F4E4A4F494E4544205448554D42205349444520),
  (0x1D82E, 0x5349474E57524954494E472048414E442D4649535420494E444558204D4944444C4520434F4E4A4F494E4544205448554D42205349444520434F4E4A4F494E454420),
  (0x1D82F, 0x5349474E57524954494E472048414E442D4649535420494E444558204D4944444C4520434F4E4A4F494E4544205448554D4220534944452042454E5420),
  (0x1D830, 0x5349474E57524954494E472048414E442D46495354204D4944444C45205448554D4220484F4F4B454420494E44455820555020),
  (0x1D831, 0x5349474E57524954494E472048414E442D4649535420494E444558205448554D4220484F4F4B4544204D4944444C4520555020),
  (0x1D832, 0x5349474E57524954494E472048414E442D4649535420494E444558204D4944444C4520434F4E4A4F494E45442048494E474544205448554D42205349444520),
  (0x1D833, 0x5349474E57524954494E472048414E442D4649535420494E444558204D4944444C452043524F53534544205448554D42205349444520),
  (0x1D834, 0x5349474E57524954494E472048414E442D4649535420494E444558204D4944444C4520434F4E4A4F494E4544205448554D4220464F525741524420),
  (0x1D835, 0x5349474E57524954494E472048414E442D4649535420494E444558204D4944444C4520434F4E4A4F494E454420435550504544205448554D4220464F525741524420),
  (0x1D836, 0x5349474E57524954494E472048414E442D46495354204D4944444C45205448554D422043555050454420494E44455820555020),
  (0x1D837, 0x5349474E57524954494E472048414E442D4649535420494E444558205448554D4220435550504544204D4944444C4520555020),
  (0x1D838, 0x5349474E57524954494E472048414E442D46495354204D4944444C45205448554D4220434952434C454420494E44455820555020),
  (0x1D839, 0x5349474E57524954494E472048414E442D46495354204D4944444C45205448554D4220434952434C454420494E4445582048494E47454420),
  (0x1D83A, 0x5349474E57524954494E472048414E442D4649535420494E444558205448554D4220414E474C4544204F5554204D4944444C4520555020),
  (0x1D83B, 0x5349474E57524954494E472048414E442D4649535420494E444558205448554D4220414E474C454420494E204D4944444C4520555020),
  (0x1D83C, 0x5349474E57524954494E472048414E442D4649535420494E444558205448554D4220434952434C4544204D4944444C4520555020),
  (0x1D83D, 0x5349474E57524954494E472048414E442D4649535420494E444558204D4944444C45205448554D4220434F4E4A4F494E45442048494E47454420),
  (0x1D83E, 0x5349474E57524954494E472048414E442D4649535420494E444558204D4944444C45205448554D4220414E474C4544204F555420),
  (0x1D83F, 0x5349474E57524954494E472048414E442D4649535420494E444558204D4944444C45205448554D4220414E474C454420),
  (0x1D840, 0x5349474E57524954494E472048414E442D46495354204D4944444C45205448554D4220414E474C4544204F555420494E44455820555020),
  (0x1D841, 0x5349474E57524954494E472048414E442D46495354204D4944444C45205448554D4220414E474C4544204F555420494E4445582043524F5353454420),
  (0x1D842, 0x5349474E57524954494E472048414E442D46495354204D4944444C45205448554D4220414E474C454420494E44455820555020),
  (0x1D843, 0x5349474E57524954494E472048414E442D4649535420494E444558205448554D4220484F4F4B4544204D4944444C452048494E47454420),
  (0x1D844, 0x5349474E57524954494E472048414E442D464C415420464F55522046494E4745525320),
  (0x1D845, 0x5349474E57524954494E472048414E442D464C415420464F55522046494E474552532042454E5420),
  (0x1D846, 0x5349474E57524954494E472048414E442D464C415420464F55522046494E474552532048494E47454420),
  (0x1D847, 0x5349474E57524954494E472048414E442D464C415420464F55522046494E4745525320434F4E4A4F494E454420),
  (0x1D848, 0x5349474E57524954494E472048414E442D464C415420464F55522046494E4745525320434F4E4A4F494E45442053504C495420),
  (0x1D849, 0x5349474E57524954494E472048414E442D434C415720464F55522046494E4745525320434F4E4A4F494E454420)]
def names_431 : List (Nat × Nat) := [
  (0x1D84A, 0x5349474E57524954494E472048414E442D4649535420464F55522046494E4745525320434F4E4A4F494E45442042454E5420),
  (0x1D84B, 0x5349474E57524954494E472048414E442D48494E474520464F55522046494E4745525320434F4E4A4F494E454420),
  (0x1D84C, 0x5349474E57524954494E472048414E442D464C415420464956452046494E474552532053505245414420),
  (0x1D84D, 0x5349474E57524954494E472048414E442D464C4154204845454C20464956452046494E474552532053505245414420),
  (0x1D84E, 0x5349474E57524954494E472048414E442D464C415420464956452046494E474552532053505245414420464F55522042454E5420),
  (0x1D84F, 0x5349474E57524954494E472048414E442D464C4154204845454C20464956452046494E474552532053505245414420464F55522042454E5420),
  (0x1D850, 0x5349474E57524954494E472048414E442D464C415420464956452046494E47455253205350524541442042454E5420),
  (0x1D851, 0x5349474E57524954494E472048414E442D464C4154204845454C20464956452046494E47455253205350524541442042454E5420),
  (0x1D852, 0x5349474E57524954494E472048414E442D464C415420464956452046494E4745525320535052454144205448554D4220464F525741524420),
  (0x1D853, 0x5349474E57524954494E472048414E442D43555020464956452046494E474552532053505245414420),
  (0x1D854, 0x5349474E57524954494E472048414E442D43555020464956452046494E4745525320535052454144204F50454E20),
  (0x1D855, 0x5349474E57524954494E472048414E442D48494E474520464956452046494E4745525320535052454144204F50454E20),
  (0x1D856, 0x5349474E57524954494E472048414E442D4F56414C20464956452046494E474552532053505245414420),
  (0x1D857, 0x5349474E57524954494E472048414E442D464C415420464956452046494E47455253205350524541442048494E47454420),
  (0x1D858, 0x5349474E57524954494E472048414E442D464C415420464956452046494E47455253205350524541442048494E474544205448554D42205349444520),
  (0x1D859, 0x5349474E57524954494E472048414E442D464C415420464956452046494E47455253205350524541442048494E474544204E4F205448554D4220),
  (0x1D85A, 0x5349474E57524954494E472048414E442D464C415420),
  (0x1D85B, 0x5349474E57524954494E472048414E442D464C4154204245545745454E2050414C4D20464143494E475320),
  (0x1D85C, 0x5349474E57524954494E472048414E442D464C4154204845454C20),
  (0x1D85D, 0x5349474E57524954494E472048414E442D464C4154205448554D42205349444520),
  (0x1D85E, 0x5349474E57524954494E472048414E442D464C4154204845454C205448554D42205349444520),
  (0x1D85F, 0x5349474E57524954494E472048414E442D464C4154205448554D422042454E5420),
  (0x1D860, 0x5349474E57524954494E472048414E442D464C4154205448554D4220464F525741524420),
  (0x1D861, 0x5349474E57524954494E472048414E442D464C41542053504C495420494E444558205448554D42205349444520),
  (0x1D862, 0x5349474E57524954494E472048414E442D464C41542053504C49542043454E54524520),
  (0x1D863, 0x5349474E57524954494E472048414E442D464C41542053504C49542043454E545245205448554D42205349444520),
  (0x1D864, 0x5349474E57524954494E472048414E442D464C41542053504C49542043454E545245205448554D4220534944452042454E5420),
  (0x1D865, 0x5349474E57524954494E472048414E442D464C41542053504C4954204C4954544C4520),
  (0x1D866, 0x5349474E57524954494E472048414E442D434C415720),
  (0x1D867, 0x5349474E57524954494E472048414E442D434C4157205448554D42205349444520),
  (0x1D868, 0x5349474E57524954494E472048414E442D434C4157204E4F205448554D4220),
  (0x1D869, 0x5349474E57524954494E472048414E442D434C4157205448554D4220464F525741524420),
  (0x1D86A, 0x5349474E57524954494E472048414E442D484F4F4B204355524C4943554520),
  (0x1D86B, 0x5349474E57524954494E472048414E442D484F4F4B20),
  (0x1D86C, 0x5349474E57524954494E472048414E442D435550204F50454E20),
  (0x1D86D, 0x5349474E57524954494E472048414E442D43555020),
  (0x1D86E, 0x5349474E57524954494E472048414E442D435550204F50454E205448554D42205349444520),
  (0x1D86F, 0x5349474E57524954494E472048414E442D435550205448554D42205349444520),
  (0x1D870, 0x5349474E57524954494E472048414E442D435550204F50454E204E4F205448554D4220),
  (0x1D871, 0x5349474E57524954494E472048414E442D435550204E4F205448554D4220),
  (0x1D872, 0x5349474E57524954494E472048414E442D435550204F50454E205448554D4220464F525741524420),
  (0x1D873, 0x5349474E57524954494E472048414E442D435550205448554D4220464F525741524420),
  (0x1D874, 0x5349474E57524954494E472048414E442D4355524C49435545204F50454E20),
  (0x1D875, 0x5349474E57524954494E472048414E442D4355524C4943554520),
  (0x1D876, 0x5349474E57524954494E472048414E442D434952434C4520),
  (0x1D877, 0x5349474E57524954494E472048414E442D4F56414C20),
  (0x1D878, 0x5349474E57524954494E472048414E442D4F56414C205448554D42205349444520),
  (0x1D879, 0x5349474E57524954494E472048414E442D4F56414C204E4F205448554D4220),
  (0x1D87A, 0x5349474E57524954494E472048414E442D4F56414C205448554D4220464F525741524420),
  (0x1D87B, 0x5349474E57524954494E472048414E442D48494E4745204F50454E20),
  (0x1D87C, 0x5349474E57524954494E472048414E442D48494E4745204F50454E205448554D4220464F525741524420),
  (0x1D87D, 0x5349474E57524954494E472048414E442D48494E474520),
  (0x1D87E, 0x5349474E57524954494E472048414E442D48494E474520534D414C4C20),
  (0x1D87F, 0x5349474E57524954494E472048414E442D48494E4745204F50454E205448554D42205349444520),
  (0x1D880, 0x5349474E57524954494E472048414E442D48494E4745205448554D42205349444520),
  (0x1D881, 0x5349474E57524954494E472048414E442D48494E4745204F50454E204E4F205448554D4220),
  (0x1D882, 0x5349474E57524954494E472048414E442D48494E4745204E4F205448554D4220),
  (0x1D883, 0x5349474E57524954494E472048414E442D48494E4745205448554D42205349444520544F554348494E4720494E44455820),
  (0x1D884, 0x5349474E57524954494E472048414E442D48494E4745205448554D42204245545745454E204D4944444C452052494E4720),
  (0x1D885, 0x5349474E57524954494E472048414E442D414E474C4520),
  (0x1D886, 0x5349474E57524954494E472048414E442D4649535420494E444558204D4944444C452052494E4720),
  (0x1D887, 0x5349474E57524954494E472048414E442D434952434C4520494E444558204D4944444C452052494E4720),
  (0x1D888, 0x5349474E57524954494E472048414E442D48494E474520494E444558204D4944444C452052494E4720),
  (0x1D889, 0x5349474E57524954494E472048414E442D414E474C4520494E444558204D4944444C452052494E4720)]
def names_432 : List (Nat × Nat) := [
  (0x1D88A, 0x5349474E57524954494E472048414E442D48494E4745204C4954544C4520),
  (0x1D88B, 0x5349474E57524954494E472048414E442D4649535420494E444558204D4944444C452052494E472042454E5420),
  (0x1D88C, 0x5349474E57524954494E472048414E442D4649535420494E444558204D4944444C452052494E4720434F4E4A4F494E454420),
  (0x1D88D, 0x5349474E57524954494E472048414E442D48494E474520494E444558204D4944444C452052494E4720434F4E4A4F494E454420),
  (0x1D88E, 0x5349474E57524954494E472048414E442D46495354204C4954544C4520444F574E20),
  (0x1D88F, 0x5349474E57524954494E472048414E442D46495354204C4954544C4520444F574E20524950504C4520535452414947485420),
  (0x1D890, 0x5349474E57524954494E472048414E442D46495354204C4954544C4520444F574E20524950504C452043555256454420),
  (0x1D891, 0x5349474E57524954494E472048414E442D46495354204C4954544C4520444F574E204F544845525320434952434C454420),
  (0x1D892, 0x5349474E57524954494E472048414E442D46495354204C4954544C4520555020),
  (0x1D893, 0x5349474E57524954494E472048414E442D46495354205448554D4220554E444552204C4954544C4520555020),
  (0x1D894, 0x5349474E57524954494E472048414E442D434952434C45204C4954544C4520555020),
  (0x1D895, 0x5349474E57524954494E472048414E442D4F56414C204C4954544C4520555020),
  (0x1D896, 0x5349474E57524954494E472048414E442D414E474C45204C4954544C4520555020),
  (0x1D897, 0x5349474E57524954494E472048414E442D46495354204C4954544C4520524149534544204B4E55434B4C4520),
  (0x1D898, 0x5349474E57524954494E472048414E442D46495354204C4954544C452042454E5420),
  (0x1D899, 0x5349474E57524954494E472048414E442D46495354204C4954544C4520544F5543484553205448554D4220),
  (0x1D89A, 0x5349474E57524954494E472048414E442D46495354204C4954544C45205448554D4220),
  (0x1D89B, 0x5349474E57524954494E472048414E442D48494E4745204C4954544C45205448554D4220),
  (0x1D89C, 0x5349474E57524954494E472048414E442D46495354204C4954544C4520494E444558205448554D4220),
  (0x1D89D, 0x5349474E57524954494E472048414E442D48494E4745204C4954544C4520494E444558205448554D4220),
  (0x1D89E, 0x5349474E57524954494E472048414E442D414E474C45204C4954544C4520494E444558205448554D4220494E444558205448554D42204F555420),
  (0x1D89F, 0x5349474E57524954494E472048414E442D414E474C45204C4954544C4520494E444558205448554D4220494E444558205448554D4220),
  (0x1D8A0, 0x5349474E57524954494E472048414E442D46495354204C4954544C4520494E44455820),
  (0x1D8A1, 0x5349474E57524954494E472048414E442D434952434C45204C4954544C4520494E44455820),
  (0x1D8A2, 0x5349474E57524954494E472048414E442D48494E4745204C4954544C4520494E44455820),
  (0x1D8A3, 0x5349474E57524954494E472048414E442D414E474C45204C4954544C4520494E44455820),
  (0x1D8A4, 0x5349474E57524954494E472048414E442D4649535420494E444558204D4944444C45204C4954544C4520),
  (0x1D8A5, 0x5349474E57524954494E472048414E442D434952434C4520494E444558204D4944444C45204C4954544C4520),
  (0x1D8A6, 0x5349474E57524954494E472048414E442D48494E474520494E444558204D4944444C45204C4954544C4520),
  (0x1D8A7, 0x5349474E57524954494E472048414E442D48494E47452052494E4720),
  (0x1D8A8, 0x5349474E57524954494E472048414E442D414E474C4520494E444558204D4944444C45204C4954544C4520),
  (0x1D8A9, 0x5349474E57524954494E472048414E442D4649535420494E444558204D4944444C452043524F5353204C4954544C4520),
  (0x1D8AA, 0x5349474E57524954494E472048414E442D434952434C4520494E444558204D4944444C452043524F5353204C4954544C4520),
  (0x1D8AB, 0x5349474E57524954494E472048414E442D464953542052494E4720444F574E20),
  (0x1D8AC, 0x5349474E57524954494E472048414E442D48494E47452052494E4720444F574E20494E444558205448554D4220484F4F4B204D4944444C4520),
  (0x1D8AD, 0x5349474E57524954494E472048414E442D414E474C452052494E4720444F574E204D4944444C45205448554D4220494E4445582043524F535320),
  (0x1D8AE, 0x5349474E57524954494E472048414E442D464953542052494E4720555020),
  (0x1D8AF, 0x5349474E57524954494E472048414E442D464953542052494E4720524149534544204B4E55434B4C4520),
  (0x1D8B0, 0x5349474E57524954494E472048414E442D464953542052494E47204C4954544C4520),
  (0x1D8B1, 0x5349474E57524954494E472048414E442D434952434C452052494E47204C4954544C4520),
  (0x1D8B2, 0x5349474E57524954494E472048414E442D4F56414C2052494E47204C4954544C4520),
  (0x1D8B3, 0x5349474E57524954494E472048414E442D414E474C452052494E47204C4954544C4520),
  (0x1D8B4, 0x5349474E57524954494E472048414E442D464953542052494E47204D4944444C4520),
  (0x1D8B5, 0x5349474E57524954494E472048414E442D464953542052494E47204D4944444C4520434F4E4A4F494E454420),
  (0x1D8B6, 0x5349474E57524954494E472048414E442D464953542052494E47204D4944444C4520524149534544204B4E55434B4C455320),
  (0x1D8B7, 0x5349474E57524954494E472048414E442D464953542052494E4720494E44455820),
  (0x1D8B8, 0x5349474E57524954494E472048414E442D464953542052494E47205448554D4220),
  (0x1D8B9, 0x5349474E57524954494E472048414E442D484F4F4B2052494E47205448554D4220),
  (0x1D8BA, 0x5349474E57524954494E472048414E442D4649535420494E4445582052494E47204C4954544C4520),
  (0x1D8BB, 0x5349474E57524954494E472048414E442D434952434C4520494E4445582052494E47204C4954544C4520),
  (0x1D8BC, 0x5349474E57524954494E472048414E442D4355524C4943554520494E4445582052494E47204C4954544C45204F4E20),
  (0x1D8BD, 0x5349474E57524954494E472048414E442D484F4F4B20494E4445582052494E47204C4954544C45204F555420),
  (0x1D8BE, 0x5349474E57524954494E472048414E442D484F4F4B20494E4445582052494E47204C4954544C4520494E20),
  (0x1D8BF, 0x5349474E57524954494E472048414E442D484F4F4B20494E4445582052494E47204C4954544C4520554E44455220),
  (0x1D8C0, 0x5349474E57524954494E472048414E442D43555020494E4445582052494E47204C4954544C4520),
  (0x1D8C1, 0x5349474E57524954494E472048414E442D48494E474520494E4445582052494E47204C4954544C4520),
  (0x1D8C2, 0x5349474E57524954494E472048414E442D414E474C4520494E4445582052494E47204C4954544C45204F555420),
  (0x1D8C3, 0x5349474E57524954494E472048414E442D414E474C4520494E4445582052494E47204C4954544C4520),
  (0x1D8C4, 0x5349474E57524954494E472048414E442D46495354204D4944444C4520444F574E20),
  (0x1D8C5, 0x5349474E57524954494E472048414E442D48494E4745204D4944444C4520),
  (0x1D8C6, 0x5349474E57524954494E472048414E442D46495354204D4944444C4520555020),
  (0x1D8C7, 0x5349474E57524954494E472048414E442D434952434C45204D4944444C4520555020),
  (0x1D8C8, 0x5349474E57524954494E472048414E442D46495354204D4944444C4520524149534544204B4E55434B4C4520),
  (0x1D8C9, 0x5349474E57524954494E472048414E442D46495354204D4944444C45205550205448554D42205349444520)]
def names_433 : List (Nat × Nat) := [
  (0x1D8CA, 0x5349474E57524954494E472048414E442D484F4F4B204D4944444C45205448554D4220),
  (0x1D8CB, 0x5349474E57524954494E472048414E442D46495354204D4944444C45205448554D42204C4954544C4520),
  (0x1D8CC, 0x5349474E57524954494E472048414E442D46495354204D4944444C45204C4954544C4520),
  (0x1D8CD, 0x5349474E57524954494E472048414E442D46495354204D4944444C452052494E47204C4954544C4520),
  (0x1D8CE, 0x5349474E57524954494E472048414E442D434952434C45204D4944444C452052494E47204C4954544C4520),
  (0x1D8CF, 0x5349474E57524954494E472048414E442D4355524C49435545204D4944444C452052494E47204C4954544C45204F4E20),
  (0x1D8D0, 0x5349474E57524954494E472048414E442D435550204D4944444C452052494E47204C4954544C4520),
  (0x1D8D1, 0x5349474E57524954494E472048414E442D48494E4745204D4944444C452052494E47204C4954544C4520),
  (0x1D8D2, 0x5349474E57524954494E472048414E442D414E474C45204D4944444C452052494E47204C4954544C45204F555420),
  (0x1D8D3, 0x5349474E57524954494E472048414E442D414E474C45204D4944444C452052494E47204C4954544C4520494E20),
  (0x1D8D4, 0x5349474E57524954494E472048414E442D414E474C45204D4944444C452052494E47204C4954544C4520),
  (0x1D8D5, 0x5349474E57524954494E472048414E442D434952434C45204D4944444C452052494E47204C4954544C452042454E5420),
  (0x1D8D6, 0x5349474E57524954494E472048414E442D434C4157204D4944444C452052494E47204C4954544C4520434F4E4A4F494E454420),
  (0x1D8D7, 0x5349474E57524954494E472048414E442D434C4157204D4944444C452052494E47204C4954544C4520434F4E4A4F494E4544205349444520),
  (0x1D8D8, 0x5349474E57524954494E472048414E442D484F4F4B204D4944444C452052494E47204C4954544C4520434F4E4A4F494E4544204F555420),
  (0x1D8D9, 0x5349474E57524954494E472048414E442D484F4F4B204D4944444C452052494E47204C4954544C4520434F4E4A4F494E454420494E20),
  (0x1D8DA, 0x5349474E57524954494E472048414E442D484F4F4B204D4944444C452052494E47204C4954544C4520434F4E4A4F494E454420),
  (0x1D8DB, 0x5349474E57524954494E472048414E442D48494E474520494E4445582048494E47454420),
  (0x1D8DC, 0x5349474E57524954494E472048414E442D4649535420494E444558205448554D42205349444520),
  (0x1D8DD, 0x5349474E57524954494E472048414E442D48494E474520494E444558205448554D42205349444520),
  (0x1D8DE, 0x5349474E57524954494E472048414E442D4649535420494E444558205448554D422053494445205448554D4220444941474F4E414C20),
  (0x1D8DF, 0x5349474E57524954494E472048414E442D4649535420494E444558205448554D422053494445205448554D4220434F4E4A4F494E454420),
  (0x1D8E0, 0x5349474E57524954494E472048414E442D4649535420494E444558205448554D422053494445205448554D422042454E5420),
  (0x1D8E1, 0x5349474E57524954494E472048414E442D4649535420494E444558205448554D42205349444520494E4445582042454E5420),
  (0x1D8E2, 0x5349474E57524954494E472048414E442D4649535420494E444558205448554D42205349444520424F54482042454E5420),
  (0x1D8E3, 0x5349474E57524954494E472048414E442D4649535420494E444558205448554D42205349444520494E4445582048494E474520),
  (0x1D8E4, 0x5349474E57524954494E472048414E442D4649535420494E444558205448554D4220464F525741524420494E44455820535452414947485420),
  (0x1D8E5, 0x5349474E57524954494E472048414E442D4649535420494E444558205448554D4220464F525741524420494E4445582042454E5420),
  (0x1D8E6, 0x5349474E57524954494E472048414E442D4649535420494E444558205448554D4220484F4F4B20),
  (0x1D8E7, 0x5349474E57524954494E472048414E442D4649535420494E444558205448554D42204355524C4943554520),
  (0x1D8E8, 0x5349474E57524954494E472048414E442D4649535420494E444558205448554D42204355525645205448554D4220494E5349444520),
  (0x1D8E9, 0x5349474E57524954494E472048414E442D434C415720494E444558205448554D42204355525645205448554D4220494E5349444520),
  (0x1D8EA, 0x5349474E57524954494E472048414E442D4649535420494E444558205448554D42204355525645205448554D4220554E44455220),
  (0x1D8EB, 0x5349474E57524954494E472048414E442D4649535420494E444558205448554D4220434952434C4520),
  (0x1D8EC, 0x5349474E57524954494E472048414E442D43555020494E444558205448554D4220),
  (0x1D8ED, 0x5349474E57524954494E472048414E442D43555020494E444558205448554D42204F50454E20),
  (0x1D8EE, 0x5349474E57524954494E472048414E442D48494E474520494E444558205448554D42204F50454E20),
  (0x1D8EF, 0x5349474E57524954494E472048414E442D48494E474520494E444558205448554D42204C4152474520),
  (0x1D8F0, 0x5349474E57524954494E472048414E442D48494E474520494E444558205448554D4220),
  (0x1D8F1, 0x5349474E57524954494E472048414E442D48494E474520494E444558205448554D4220534D414C4C20),
  (0x1D8F2, 0x5349474E57524954494E472048414E442D414E474C4520494E444558205448554D42204F555420),
  (0x1D8F3, 0x5349474E57524954494E472048414E442D414E474C4520494E444558205448554D4220494E20),
  (0x1D8F4, 0x5349474E57524954494E472048414E442D414E474C4520494E444558205448554D4220),
  (0x1D8F5, 0x5349474E57524954494E472048414E442D46495354205448554D4220),
  (0x1D8F6, 0x5349474E57524954494E472048414E442D46495354205448554D42204845454C20),
  (0x1D8F7, 0x5349474E57524954494E472048414E442D46495354205448554D42205349444520444941474F4E414C20),
  (0x1D8F8, 0x5349474E57524954494E472048414E442D46495354205448554D42205349444520434F4E4A4F494E454420),
  (0x1D8F9, 0x5349474E57524954494E472048414E442D46495354205448554D4220534944452042454E5420),
  (0x1D8FA, 0x5349474E57524954494E472048414E442D46495354205448554D4220464F525741524420),
  (0x1D8FB, 0x5349474E57524954494E472048414E442D46495354205448554D42204245545745454E20494E444558204D4944444C4520),
  (0x1D8FC, 0x5349474E57524954494E472048414E442D46495354205448554D42204245545745454E204D4944444C452052494E4720),
  (0x1D8FD, 0x5349474E57524954494E472048414E442D46495354205448554D42204245545745454E2052494E47204C4954544C4520),
  (0x1D8FE, 0x5349474E57524954494E472048414E442D46495354205448554D4220554E4445522054574F2046494E4745525320),
  (0x1D8FF, 0x5349474E57524954494E472048414E442D46495354205448554D42204F5645522054574F2046494E4745525320),
  (0x1D900, 0x5349474E57524954494E472048414E442D46495354205448554D4220554E4445522054485245452046494E4745525320),
  (0x1D901, 0x5349474E57524954494E472048414E442D46495354205448554D4220554E44455220464F55522046494E4745525320),
  (0x1D902, 0x5349474E57524954494E472048414E442D46495354205448554D42204F56455220464F555220524149534544204B4E55434B4C455320),
  (0x1D903, 0x5349474E57524954494E472048414E442D4649535420),
  (0x1D904, 0x5349474E57524954494E472048414E442D46495354204845454C20),
  (0x1D905, 0x5349474E57524954494E4720544F5543482053494E474C4520),
  (0x1D906, 0x5349474E57524954494E4720544F554348204D554C5449504C4520),
  (0x1D907, 0x5349474E57524954494E4720544F554348204245545745454E20),
  (0x1D908, 0x5349474E57524954494E472047524153502053494E474C4520),
  (0x1D909, 0x5349474E57524954494E47204752415350204D554C5449504C4520)]
def names_434 : List (Nat × Nat) := [
  (0x1D90A, 0x5349474E57524954494E47204752415350204245545745454E20),
  (0x1D90B, 0x5349474E57524954494E4720535452494B452053494E474C4520),
  (0x1D90C, 0x5349474E57524954494E4720535452494B45204D554C5449504C4520),
  (0x1D90D, 0x5349474E57524954494E4720535452494B45204245545745454E20),
  (0x1D90E, 0x5349474E57524954494E472042525553482053494E474C4520),
  (0x1D90F, 0x5349474E57524954494E47204252555348204D554C5449504C4520),
  (0x1D910, 0x5349474E57524954494E47204252555348204245545745454E20),
  (0x1D911, 0x5349474E57524954494E47205255422053494E474C4520),
  (0x1D912, 0x5349474E57524954494E4720525542204D554C5449504C4520),
  (0x1D913, 0x5349474E57524954494E4720525542204245545745454E20),
  (0x1D914, 0x5349474E57524954494E4720535552464143452053594D424F4C5320),
  (0x1D915, 0x5349474E57524954494E472053555246414345204245545745454E20),
  (0x1D916, 0x5349474E57524954494E472053515545455A45204C415247452053494E474C4520),
  (0x1D917, 0x5349474E57524954494E472053515545455A4520534D414C4C2053494E474C4520),
  (0x1D918, 0x5349474E57524954494E472053515545455A45204C41524745204D554C5449504C4520),
  (0x1D919, 0x5349474E57524954494E472053515545455A4520534D414C4C204D554C5449504C4520),
  (0x1D91A, 0x5349474E57524954494E472053515545455A452053455155454E5449414C20),
  (0x1D91B, 0x5349474E57524954494E4720464C49434B204C415247452053494E474C4520),
  (0x1D91C, 0x5349474E57524954494E4720464C49434B20534D414C4C2053494E474C4520),
  (0x1D91D, 0x5349474E57524954494E4720464C49434B204C41524745204D554C5449504C4520),
  (0x1D91E, 0x5349474E57524954494E4720464C49434B20534D414C4C204D554C5449504C4520),
  (0x1D91F, 0x5349474E57524954494E4720464C49434B2053455155454E5449414C20),
  (0x1D920, 0x5349474E57524954494E472053515545455A4520464C49434B20414C5445524E4154494E4720),
  (0x1D921, 0x5349474E57524954494E47204D4F56454D454E542D48494E474520555020444F574E204C4152474520),
  (0x1D922, 0x5349474E57524954494E47204D4F56454D454E542D48494E474520555020444F574E20534D414C4C20),
  (0x1D923, 0x5349474E57524954494E47204D4F56454D454E542D48494E47452055502053455155454E5449414C20),
  (0x1D924, 0x5349474E57524954494E47204D4F56454D454E542D48494E474520444F574E2053455155454E5449414C20),
  (0x1D925, 0x5349474E57524954494E47204D4F56454D454E542D48494E474520555020444F574E20414C5445524E4154494E47204C4152474520),
  (0x1D926, 0x5349474E57524954494E47204D4F56454D454E542D48494E474520555020444F574E20414C5445524E4154494E4720534D414C4C20),
  (0x1D927, 0x5349474E57524954494E47204D4F56454D454E542D48494E4745205349444520544F20534944452053434953534F525320),
  (0x1D928, 0x5349474E57524954494E47204D4F56454D454E542D57414C4C504C414E452046494E47455220434F4E5441435420),
  (0x1D929, 0x5349474E57524954494E47204D4F56454D454E542D464C4F4F52504C414E452046494E47455220434F4E5441435420),
  (0x1D92A, 0x5349474E57524954494E47204D4F56454D454E542D57414C4C504C414E452053494E474C4520535452414947485420534D414C4C20),
  (0x1D92B, 0x5349474E57524954494E47204D4F56454D454E542D57414C4C504C414E452053494E474C45205354524149474854204D454449554D20),
  (0x1D92C, 0x5349474E57524954494E47204D4F56454D454E542D57414C4C504C414E452053494E474C45205354524149474854204C4152474520),
  (0x1D92D, 0x5349474E57524954494E47204D4F56454D454E542D57414C4C504C414E452053494E474C45205354524149474854204C41524745535420),
  (0x1D92E, 0x5349474E57524954494E47204D4F56454D454E542D57414C4C504C414E452053494E474C4520575249535420464C455820),
  (0x1D92F, 0x5349474E57524954494E47204D4F56454D454E542D57414C4C504C414E4520444F55424C4520535452414947485420),
  (0x1D930, 0x5349474E57524954494E47204D4F56454D454E542D57414C4C504C414E4520444F55424C4520575249535420464C455820),
  (0x1D931, 0x5349474E57524954494E47204D4F56454D454E542D57414C4C504C414E4520444F55424C4520414C5445524E4154494E4720),
  (0x1D932, 0x5349474E57524954494E47204D4F56454D454E542D57414C4C504C414E4520444F55424C4520414C5445524E4154494E4720575249535420464C455820),
  (0x1D933, 0x5349474E57524954494E47204D4F56454D454E542D57414C4C504C414E452043524F535320),
  (0x1D934, 0x5349474E57524954494E47204D4F56454D454E542D57414C4C504C414E4520545249504C45205354524149474854204D4F56454D454E5420),
  (0x1D935, 0x5349474E57524954494E47204D4F56454D454E542D57414C4C504C414E4520545249504C4520575249535420464C455820),
  (0x1D936, 0x5349474E57524954494E47204D4F56454D454E542D57414C4C504C414E4520545249504C4520414C5445524E4154494E4720),
  (0x1D937, 0x5349474E57524954494E47204D4F56454D454E542D57414C4C504C414E4520545249504C4520414C5445524E4154494E4720575249535420464C455820),
  (0x1D938, 0x5349474E57524954494E47204D4F56454D454E542D57414C4C504C414E452042454E4420534D414C4C20),
  (0x1D939, 0x5349474E57524954494E47204D4F56454D454E542D57414C4C504C414E452042454E44204D454449554D20),
  (0x1D93A, 0x5349474E57524954494E47204D4F56454D454E542D57414C4C504C414E452042454E44204C4152474520),
  (0x1D93B, 0x5349474E57524954494E47204D4F56454D454E542D57414C4C504C414E4520434F524E455220534D414C4C20),
  (0x1D93C, 0x5349474E57524954494E47204D4F56454D454E542D57414C4C504C414E4520434F524E4552204D454449554D20),
  (0x1D93D, 0x5349474E57524954494E47204D4F56454D454E542D57414C4C504C414E4520434F524E4552204C4152474520),
  (0x1D93E, 0x5349474E57524954494E47204D4F56454D454E542D57414C4C504C414E4520434F524E455220524F544154494F4E20),
  (0x1D93F, 0x5349474E57524954494E47204D4F56454D454E542D57414C4C504C414E4520434845434B20534D414C4C20),
  (0x1D940, 0x5349474E57524954494E47204D4F56454D454E542D57414C4C504C414E4520434845434B204D454449554D20),
  (0x1D941, 0x5349474E57524954494E47204D4F56454D454E542D57414C4C504C414E4520434845434B204C4152474520),
  (0x1D942, 0x5349474E57524954494E47204D4F56454D454E542D57414C4C504C414E4520424F5820534D414C4C20),
  (0x1D943, 0x5349474E57524954494E47204D4F56454D454E542D57414C4C504C414E4520424F58204D454449554D20),
  (0x1D944, 0x5349474E57524954494E47204D4F56454D454E542D57414C4C504C414E4520424F58204C4152474520),
  (0x1D945, 0x5349474E57524954494E47204D4F56454D454E542D57414C4C504C414E45205A49475A414720534D414C4C20),
  (0x1D946, 0x5349474E57524954494E47204D4F56454D454E542D57414C4C504C414E45205A49475A4147204D454449554D20),
  (0x1D947, 0x5349474E57524954494E47204D4F56454D454E542D57414C4C504C414E45205A49475A4147204C4152474520),
  (0x1D948, 0x5349474E57524954494E47204D4F56454D454E542D57414C4C504C414E45205045414B5320534D414C4C20),
  (0x1D949, 0x5349474E57524954494E47204D4F56454D454E542D57414C4C504C414E45205045414B53204D454449554D20)]
def names_435 : List (Nat × Nat) := [
  (0x1D94A, 0x5349474E57524954494E47204D4F56454D454E542D57414C4C504C414E45205045414B53204C4152474520),
  (0x1D94B, 0x5349474E57524954494E472054524156454C2D57414C4C504C414E4520524F544154494F4E2D57414C4C504C414E452053494E474C4520),
  (0x1D94C, 0x5349474E57524954494E472054524156454C2D57414C4C504C414E4520524F544154494F4E2D57414C4C504C414E4520444F55424C4520),
  (0x1D94D, 0x5349474E57524954494E472054524156454C2D57414C4C504C414E4520524F544154494F4E2D57414C4C504C414E4520414C5445524E4154494E4720),
  (0x1D94E, 0x5349474E57524954494E472054524156454C2D57414C4C504C414E4520524F544154494F4E2D464C4F4F52504C414E452053494E474C4520),
  (0x1D94F, 0x5349474E57524954494E472054524156454C2D57414C4C504C414E4520524F544154494F4E2D464C4F4F52504C414E4520444F55424C4520),
  (0x1D950, 0x5349474E57524954494E472054524156454C2D57414C4C504C414E4520524F544154494F4E2D464C4F4F52504C414E4520414C5445524E4154494E4720),
  (0x1D951, 0x5349474E57524954494E472054524156454C2D57414C4C504C414E45205348414B494E4720),
  (0x1D952, 0x5349474E57524954494E472054524156454C2D57414C4C504C414E452041524D2053504952414C2053494E474C4520),
  (0x1D953, 0x5349474E57524954494E472054524156454C2D57414C4C504C414E452041524D2053504952414C20444F55424C4520),
  (0x1D954, 0x5349474E57524954494E472054524156454C2D57414C4C504C414E452041524D2053504952414C20545249504C4520),
  (0x1D955, 0x5349474E57524954494E47204D4F56454D454E542D444941474F4E414C204157415920534D414C4C20),
  (0x1D956, 0x5349474E57524954494E47204D4F56454D454E542D444941474F4E414C2041574159204D454449554D20),
  (0x1D957, 0x5349474E57524954494E47204D4F56454D454E542D444941474F4E414C2041574159204C4152474520),
  (0x1D958, 0x5349474E57524954494E47204D4F56454D454E542D444941474F4E414C2041574159204C41524745535420),
  (0x1D959, 0x5349474E57524954494E47204D4F56454D454E542D444941474F4E414C20544F574152445320534D414C4C20),
  (0x1D95A, 0x5349474E57524954494E47204D4F56454D454E542D444941474F4E414C20544F5741524453204D454449554D20),
  (0x1D95B, 0x5349474E57524954494E47204D4F56454D454E542D444941474F4E414C20544F5741524453204C4152474520),
  (0x1D95C, 0x5349474E57524954494E47204D4F56454D454E542D444941474F4E414C20544F5741524453204C41524745535420),
  (0x1D95D, 0x5349474E57524954494E47204D4F56454D454E542D444941474F4E414C204245545745454E204157415920534D414C4C20),
  (0x1D95E, 0x5349474E57524954494E47204D4F56454D454E542D444941474F4E414C204245545745454E2041574159204D454449554D20),
  (0x1D95F, 0x5349474E57524954494E47204D4F56454D454E542D444941474F4E414C204245545745454E2041574159204C4152474520),
  (0x1D960, 0x5349474E57524954494E47204D4F56454D454E542D444941474F4E414C204245545745454E2041574159204C41524745535420),
  (0x1D961, 0x5349474E57524954494E47204D4F56454D454E542D444941474F4E414C204245545745454E20544F574152445320534D414C4C20),
  (0x1D962, 0x5349474E57524954494E47204D4F56454D454E542D444941474F4E414C204245545745454E20544F5741524453204D454449554D20),
  (0x1D963, 0x5349474E57524954494E47204D4F56454D454E542D444941474F4E414C204245545745454E20544F5741524453204C4152474520),
  (0x1D964, 0x5349474E57524954494E47204D4F56454D454E542D444941474F4E414C204245545745454E20544F5741524453204C41524745535420),
  (0x1D965, 0x5349474E57524954494E47204D4F56454D454E542D464C4F4F52504C414E452053494E474C4520535452414947485420534D414C4C20),
  (0x1D966, 0x5349474E57524954494E47204D4F56454D454E542D464C4F4F52504C414E452053494E474C45205354524149474854204D454449554D20),
  (0x1D967, 0x5349474E57524954494E47204D4F56454D454E542D464C4F4F52504C414E452053494E474C45205354524149474854204C4152474520),
  (0x1D968, 0x5349474E57524954494E47204D4F56454D454E542D464C4F4F52504C414E452053494E474C45205354524149474854204C41524745535420),
  (0x1D969, 0x5349474E57524954494E47204D4F56454D454E542D464C4F4F52504C414E452053494E474C4520575249535420464C455820),
  (0x1D96A, 0x5349474E57524954494E47204D4F56454D454E542D464C4F4F52504C414E4520444F55424C4520535452414947485420),
  (0x1D96B, 0x5349474E57524954494E47204D4F56454D454E542D464C4F4F52504C414E4520444F55424C4520575249535420464C455820),
  (0x1D96C, 0x5349474E57524954494E47204D4F56454D454E542D464C4F4F52504C414E4520444F55424C4520414C5445524E4154494E4720),
  (0x1D96D, 0x5349474E57524954494E47204D4F56454D454E542D464C4F4F52504C414E4520444F55424C4520414C5445524E4154494E4720575249535420464C455820),
  (0x1D96E, 0x5349474E57524954494E47204D4F56454D454E542D464C4F4F52504C414E452043524F535320),
  (0x1D96F, 0x5349474E57524954494E47204D4F56454D454E542D464C4F4F52504C414E4520545249504C45205354524149474854204D4F56454D454E5420),
  (0x1D970, 0x5349474E57524954494E47204D4F56454D454E542D464C4F4F52504C414E4520545249504C4520575249535420464C455820),
  (0x1D971, 0x5349474E57524954494E47204D4F56454D454E542D464C4F4F52504C414E4520545249504C4520414C5445524E4154494E47204D4F56454D454E5420),
  (0x1D972, 0x5349474E57524954494E47204D4F56454D454E542D464C4F4F52504C414E4520545249504C4520414C5445524E4154494E4720575249535420464C455820),
  (0x1D973, 0x5349474E57524954494E47204D4F56454D454E542D464C4F4F52504C414E452042454E4420),
  (0x1D974, 0x5349474E57524954494E47204D4F56454D454E542D464C4F4F52504C414E4520434F524E455220534D414C4C20),
  (0x1D975, 0x5349474E57524954494E47204D4F56454D454E542D464C4F4F52504C414E4520434F524E4552204D454449554D20),
  (0x1D976, 0x5349474E57524954494E47204D4F56454D454E542D464C4F4F52504C414E4520434F524E4552204C4152474520),
  (0x1D977, 0x5349474E57524954494E47204D4F56454D454E542D464C4F4F52504C414E4520434845434B20),
  (0x1D978, 0x5349474E57524954494E47204D4F56454D454E542D464C4F4F52504C414E4520424F5820534D414C4C20),
  (0x1D979, 0x5349474E57524954494E47204D4F56454D454E542D464C4F4F52504C414E4520424F58204D454449554D20),
  (0x1D97A, 0x5349474E57524954494E47204D4F56454D454E542D464C4F4F52504C414E4520424F58204C4152474520),
  (0x1D97B, 0x5349474E57524954494E47204D4F56454D454E542D464C4F4F52504C414E45205A49475A414720534D414C4C20),
  (0x1D97C, 0x5349474E57524954494E47204D4F56454D454E542D464C4F4F52504C414E45205A49475A4147204D454449554D20),
  (0x1D97D, 0x5349474E57524954494E47204D4F56454D454E542D464C4F4F52504C414E45205A49475A4147204C4152474520),
  (0x1D97E, 0x5349474E57524954494E47204D4F56454D454E542D464C4F4F52504C414E45205045414B5320534D414C4C20),
  (0x1D97F, 0x5349474E57524954494E47204D4F56454D454E542D464C4F4F52504C414E45205045414B53204D454449554D20),
  (0x1D980, 0x5349474E57524954494E47204D4F56454D454E542D464C4F4F52504C414E45205045414B53204C4152474520),
  (0x1D981, 0x5349474E57524954494E472054524156454C2D464C4F4F52504C414E4520524F544154494F4E2D464C4F4F52504C414E452053494E474C4520),
  (0x1D982, 0x5349474E57524954494E472054524156454C2D464C4F4F52504C414E4520524F544154494F4E2D464C4F4F52504C414E4520444F55424C4520),
  (0x1D983, 0x5349474E57524954494E472054524156454C2D464C4F4F52504C414E4520524F544154494F4E2D464C4F4F52504C414E4520414C5445524E4154494E4720),
  (0x1D984, 0x5349474E57524954494E472054524156454C2D464C4F4F52504C414E4520524F544154494F4E2D57414C4C504C414E452053494E474C4520),
  (0x1D985, 0x5349474E57524954494E472054524156454C2D464C4F4F52504C414E4520524F544154494F4E2D57414C4C504C414E4520444F55424C4520),
  (0x1D986, 0x5349474E57524954494E472054524156454C2D464C4F4F52504C414E4520524F544154494F4E2D57414C4C504C414E4520414C5445524E4154494E4720),
  (0x1D987, 0x5349474E57524954494E472054524156454C2D464C4F4F52504C414E45205348414B494E4720),
  (0x1D988, 0x5349474E57524954494E47204D4F56454D454E542D57414C4C504C414E45204355525645205155415254455220534D414C4C20),
  (0x1D989, 0x5349474E57524954494E47204D4F56454D454E542D57414C4C504C414E452043555256452051554152544552204D454449554D20)]
def names_436 : List (Nat × Nat) := [
  (0x1D98A, 0x5349474E57524954494E47204D4F56454D454E542D57414C4C504C414E452043555256452051554152544552204C4152474520),
  (0x1D98B, 0x5349474E57524954494E47204D4F56454D454E542D57414C4C504C414E452043555256452051554152544552204C41524745535420),
  (0x1D98C, 0x5349474E57524954494E47204D4F56454D454E542D57414C4C504C414E452043555256452048414C462D434952434C4520534D414C4C20),
  (0x1D98D, 0x5349474E57524954494E47204D4F56454D454E542D57414C4C504C414E452043555256452048414C462D434952434C45204D454449554D20),
  (0x1D98E, 0x5349474E57524954494E47204D4F56454D454E542D57414C4C504C414E452043555256452048414C462D434952434C45204C4152474520),
  (0x1D98F, 0x5349474E57524954494E47204D4F56454D454E542D57414C4C504C414E452043555256452048414C462D434952434C45204C41524745535420),
  (0x1D990, 0x5349474E57524954494E47204D4F56454D454E542D57414C4C504C414E452043555256452054485245452D5155415254455220434952434C4520534D414C4C20),
  (0x1D991, 0x5349474E57524954494E47204D4F56454D454E542D57414C4C504C414E452043555256452054485245452D5155415254455220434952434C45204D454449554D20),
  (0x1D992, 0x5349474E57524954494E47204D4F56454D454E542D57414C4C504C414E452048554D5020534D414C4C20),
  (0x1D993, 0x5349474E57524954494E47204D4F56454D454E542D57414C4C504C414E452048554D50204D454449554D20),
  (0x1D994, 0x5349474E57524954494E47204D4F56454D454E542D57414C4C504C414E452048554D50204C4152474520),
  (0x1D995, 0x5349474E57524954494E47204D4F56454D454E542D57414C4C504C414E45204C4F4F5020534D414C4C20),
  (0x1D996, 0x5349474E57524954494E47204D4F56454D454E542D57414C4C504C414E45204C4F4F50204D454449554D20),
  (0x1D997, 0x5349474E57524954494E47204D4F56454D454E542D57414C4C504C414E45204C4F4F50204C4152474520),
  (0x1D998, 0x5349474E57524954494E47204D4F56454D454E542D57414C4C504C414E45204C4F4F5020534D414C4C20444F55424C4520),
  (0x1D999, 0x5349474E57524954494E47204D4F56454D454E542D57414C4C504C414E45205741564520435552564520444F55424C4520534D414C4C20),
  (0x1D99A, 0x5349474E57524954494E47204D4F56454D454E542D57414C4C504C414E45205741564520435552564520444F55424C45204D454449554D20),
  (0x1D99B, 0x5349474E57524954494E47204D4F56454D454E542D57414C4C504C414E45205741564520435552564520444F55424C45204C4152474520),
  (0x1D99C, 0x5349474E57524954494E47204D4F56454D454E542D57414C4C504C414E45205741564520435552564520545249504C4520534D414C4C20),
  (0x1D99D, 0x5349474E57524954494E47204D4F56454D454E542D57414C4C504C414E45205741564520435552564520545249504C45204D454449554D20),
  (0x1D99E, 0x5349474E57524954494E47204D4F56454D454E542D57414C4C504C414E45205741564520435552564520545249504C45204C4152474520),
  (0x1D99F, 0x5349474E57524954494E47204D4F56454D454E542D57414C4C504C414E45204355525645205448454E20535452414947485420),
  (0x1D9A0, 0x5349474E57524954494E47204D4F56454D454E542D57414C4C504C414E45204355525645442043524F535320534D414C4C20),
  (0x1D9A1, 0x5349474E57524954494E47204D4F56454D454E542D57414C4C504C414E45204355525645442043524F5353204D454449554D20),
  (0x1D9A2, 0x5349474E57524954494E4720524F544154494F4E2D57414C4C504C414E452053494E474C4520),
  (0x1D9A3, 0x5349474E57524954494E4720524F544154494F4E2D57414C4C504C414E4520444F55424C4520),
  (0x1D9A4, 0x5349474E57524954494E4720524F544154494F4E2D57414C4C504C414E4520414C5445524E41544520),
  (0x1D9A5, 0x5349474E57524954494E47204D4F56454D454E542D57414C4C504C414E45205348414B494E4720),
  (0x1D9A6, 0x5349474E57524954494E47204D4F56454D454E542D57414C4C504C414E452043555256452048495454494E472046524F4E542057414C4C20),
  (0x1D9A7, 0x5349474E57524954494E47204D4F56454D454E542D57414C4C504C414E452048554D502048495454494E472046524F4E542057414C4C20),
  (0x1D9A8, 0x5349474E57524954494E47204D4F56454D454E542D57414C4C504C414E45204C4F4F502048495454494E472046524F4E542057414C4C20),
  (0x1D9A9, 0x5349474E57524954494E47204D4F56454D454E542D57414C4C504C414E4520574156452048495454494E472046524F4E542057414C4C20),
  (0x1D9AA, 0x5349474E57524954494E4720524F544154494F4E2D57414C4C504C414E452053494E474C452048495454494E472046524F4E542057414C4C20),
  (0x1D9AB, 0x5349474E57524954494E4720524F544154494F4E2D57414C4C504C414E4520444F55424C452048495454494E472046524F4E542057414C4C20),
  (0x1D9AC, 0x5349474E57524954494E4720524F544154494F4E2D57414C4C504C414E4520414C5445524E4154494E472048495454494E472046524F4E542057414C4C20),
  (0x1D9AD, 0x5349474E57524954494E47204D4F56454D454E542D57414C4C504C414E452043555256452048495454494E4720434845535420),
  (0x1D9AE, 0x5349474E57524954494E47204D4F56454D454E542D57414C4C504C414E452048554D502048495454494E4720434845535420),
  (0x1D9AF, 0x5349474E57524954494E47204D4F56454D454E542D57414C4C504C414E45204C4F4F502048495454494E4720434845535420),
  (0x1D9B0, 0x5349474E57524954494E47204D4F56454D454E542D57414C4C504C414E4520574156452048495454494E4720434845535420),
  (0x1D9B1, 0x5349474E57524954494E4720524F544154494F4E2D57414C4C504C414E452053494E474C452048495454494E4720434845535420),
  (0x1D9B2, 0x5349474E57524954494E4720524F544154494F4E2D57414C4C504C414E4520444F55424C452048495454494E4720434845535420),
  (0x1D9B3, 0x5349474E57524954494E4720524F544154494F4E2D57414C4C504C414E4520414C5445524E4154494E472048495454494E4720434845535420),
  (0x1D9B4, 0x5349474E57524954494E47204D4F56454D454E542D57414C4C504C414E45205741564520444941474F4E414C205041544820534D414C4C20),
  (0x1D9B5, 0x5349474E57524954494E47204D4F56454D454E542D57414C4C504C414E45205741564520444941474F4E414C2050415448204D454449554D20),
  (0x1D9B6, 0x5349474E57524954494E47204D4F56454D454E542D57414C4C504C414E45205741564520444941474F4E414C2050415448204C4152474520),
  (0x1D9B7, 0x5349474E57524954494E47204D4F56454D454E542D464C4F4F52504C414E452043555256452048495454494E47204345494C494E4720534D414C4C20),
  (0x1D9B8, 0x5349474E57524954494E47204D4F56454D454E542D464C4F4F52504C414E452043555256452048495454494E47204345494C494E47204C4152474520),
  (0x1D9B9, 0x5349474E57524954494E47204D4F56454D454E542D464C4F4F52504C414E452048554D502048495454494E47204345494C494E4720534D414C4C20444F55424C4520),
  (0x1D9BA, 0x5349474E57524954494E47204D4F56454D454E542D464C4F4F52504C414E452048554D502048495454494E47204345494C494E47204C4152474520444F55424C4520),
  (0x1D9BB, 0x5349474E57524954494E47204D4F56454D454E542D464C4F4F52504C414E452048554D502048495454494E47204345494C494E4720534D414C4C20545249504C4520),
  (0x1D9BC, 0x5349474E57524954494E47204D4F56454D454E542D464C4F4F52504C414E452048554D502048495454494E47204345494C494E47204C4152474520545249504C4520),
  (0x1D9BD, 0x5349474E57524954494E47204D4F56454D454E542D464C4F4F52504C414E45204C4F4F502048495454494E47204345494C494E4720534D414C4C2053494E474C4520),
  (0x1D9BE, 0x5349474E57524954494E47204D4F56454D454E542D464C4F4F52504C414E45204C4F4F502048495454494E47204345494C494E47204C415247452053494E474C4520),
  (0x1D9BF, 0x5349474E57524954494E47204D4F56454D454E542D464C4F4F52504C414E45204C4F4F502048495454494E47204345494C494E4720534D414C4C20444F55424C4520),
  (0x1D9C0, 0x5349474E57524954494E47204D4F56454D454E542D464C4F4F52504C414E45204C4F4F502048495454494E47204345494C494E47204C4152474520444F55424C4520),
  (0x1D9C1, 0x5349474E57524954494E47204D4F56454D454E542D464C4F4F52504C414E4520574156452048495454494E47204345494C494E4720534D414C4C20),
  (0x1D9C2, 0x5349474E57524954494E47204D4F56454D454E542D464C4F4F52504C414E4520574156452048495454494E47204345494C494E47204C4152474520),
  (0x1D9C3, 0x5349474E57524954494E4720524F544154494F4E2D464C4F4F52504C414E452053494E474C452048495454494E47204345494C494E4720),
  (0x1D9C4, 0x5349474E57524954494E4720524F544154494F4E2D464C4F4F52504C414E4520444F55424C452048495454494E47204345494C494E4720),
  (0x1D9C5, 0x5349474E57524954494E4720524F544154494F4E2D464C4F4F52504C414E4520414C5445524E4154494E472048495454494E47204345494C494E4720),
  (0x1D9C6, 0x5349474E57524954494E47204D4F56454D454E542D464C4F4F52504C414E452043555256452048495454494E4720464C4F4F5220534D414C4C20),
  (0x1D9C7, 0x5349474E57524954494E47204D4F56454D454E542D464C4F4F52504C414E452043555256452048495454494E4720464C4F4F52204C4152474520),
  (0x1D9C8, 0x5349474E57524954494E47204D4F56454D454E542D464C4F4F52504C414E452048554D502048495454494E4720464C4F4F5220534D414C4C20444F55424C4520),
  (0x1D9C9, 0x5349474E57524954494E47204D4F56454D454E542D464C4F4F52504C414E452048554D502048495454494E4720464C4F4F52204C4152474520444F55424C4520)]
def names_437 : List (Nat × Nat) := [
  (0x1D9CA, 0x5349474E57524954494E47204D4F56454D454E542D464C4F4F52504C414E452048554D502048495454494E4720464C4F4F5220545249504C4520534D414C4C20545249504C4520),
  (0x1D9CB, 0x5349474E57524954494E47204D4F56454D454E542D464C4F4F52504C414E452048554D502048495454494E4720464C4F4F5220545249504C45204C4152474520545249504C4520),
  (0x1D9CC, 0x5349474E57524954494E47204D4F56454D454E542D464C4F4F52504C414E45204C4F4F502048495454494E4720464C4F4F5220534D414C4C2053494E474C4520),
  (0x1D9CD, 0x5349474E57524954494E47204D4F56454D454E542D464C4F4F52504C414E45204C4F4F502048495454494E4720464C4F4F52204C415247452053494E474C4520),
  (0x1D9CE, 0x5349474E57524954494E47204D4F56454D454E542D464C4F4F52504C414E45204C4F4F502048495454494E4720464C4F4F5220534D414C4C20444F55424C4520),
  (0x1D9CF, 0x5349474E57524954494E47204D4F56454D454E542D464C4F4F52504C414E45204C4F4F502048495454494E4720464C4F4F52204C4152474520444F55424C4520),
  (0x1D9D0, 0x5349474E57524954494E47204D4F56454D454E542D464C4F4F52504C414E4520574156452048495454494E4720464C4F4F5220534D414C4C20),
  (0x1D9D1, 0x5349474E57524954494E47204D4F56454D454E542D464C4F4F52504C414E4520574156452048495454494E4720464C4F4F52204C4152474520),
  (0x1D9D2, 0x5349474E57524954494E4720524F544154494F4E2D464C4F4F52504C414E452053494E474C452048495454494E4720464C4F4F5220),
  (0x1D9D3, 0x5349474E57524954494E4720524F544154494F4E2D464C4F4F52504C414E4520444F55424C452048495454494E4720464C4F4F5220),
  (0x1D9D4, 0x5349474E57524954494E4720524F544154494F4E2D464C4F4F52504C414E4520414C5445524E4154494E472048495454494E4720464C4F4F5220),
  (0x1D9D5, 0x5349474E57524954494E47204D4F56454D454E542D464C4F4F52504C414E4520435552564520534D414C4C20),
  (0x1D9D6, 0x5349474E57524954494E47204D4F56454D454E542D464C4F4F52504C414E45204355525645204D454449554D20),
  (0x1D9D7, 0x5349474E57524954494E47204D4F56454D454E542D464C4F4F52504C414E45204355525645204C4152474520),
  (0x1D9D8, 0x5349474E57524954494E47204D4F56454D454E542D464C4F4F52504C414E45204355525645204C41524745535420),
  (0x1D9D9, 0x5349474E57524954494E47204D4F56454D454E542D464C4F4F52504C414E4520435552564520434F4D42494E454420),
  (0x1D9DA, 0x5349474E57524954494E47204D4F56454D454E542D464C4F4F52504C414E452048554D5020534D414C4C20),
  (0x1D9DB, 0x5349474E57524954494E47204D4F56454D454E542D464C4F4F52504C414E45204C4F4F5020534D414C4C20),
  (0x1D9DC, 0x5349474E57524954494E47204D4F56454D454E542D464C4F4F52504C414E45205741564520534E414B4520),
  (0x1D9DD, 0x5349474E57524954494E47204D4F56454D454E542D464C4F4F52504C414E45205741564520534D414C4C20),
  (0x1D9DE, 0x5349474E57524954494E47204D4F56454D454E542D464C4F4F52504C414E452057415645204C4152474520),
  (0x1D9DF, 0x5349474E57524954494E4720524F544154494F4E2D464C4F4F52504C414E452053494E474C4520),
  (0x1D9E0, 0x5349474E57524954494E4720524F544154494F4E2D464C4F4F52504C414E4520444F55424C4520),
  (0x1D9E1, 0x5349474E57524954494E4720524F544154494F4E2D464C4F4F52504C414E4520414C5445524E4154494E4720),
  (0x1D9E2, 0x5349474E57524954494E47204D4F56454D454E542D464C4F4F52504C414E45205348414B494E4720504152414C4C454C20),
  (0x1D9E3, 0x5349474E57524954494E47204D4F56454D454E542D57414C4C504C414E452041524D20434952434C4520534D414C4C2053494E474C4520),
  (0x1D9E4, 0x5349474E57524954494E47204D4F56454D454E542D57414C4C504C414E452041524D20434952434C45204D454449554D2053494E474C4520),
  (0x1D9E5, 0x5349474E57524954494E47204D4F56454D454E542D57414C4C504C414E452041524D20434952434C4520534D414C4C20444F55424C4520),
  (0x1D9E6, 0x5349474E57524954494E47204D4F56454D454E542D57414C4C504C414E452041524D20434952434C45204D454449554D20444F55424C4520),
  (0x1D9E7, 0x5349474E57524954494E47204D4F56454D454E542D464C4F4F52504C414E452041524D20434952434C452048495454494E472057414C4C20534D414C4C2053494E474C4520),
  (0x1D9E8, 0x5349474E57524954494E47204D4F56454D454E542D464C4F4F52504C414E452041524D20434952434C452048495454494E472057414C4C204D454449554D2053494E474C4520),
  (0x1D9E9, 0x5349474E57524954494E47204D4F56454D454E542D464C4F4F52504C414E452041524D20434952434C452048495454494E472057414C4C204C415247452053494E474C4520),
  (0x1D9EA, 0x5349474E57524954494E47204D4F56454D454E542D464C4F4F52504C414E452041524D20434952434C452048495454494E472057414C4C20534D414C4C20444F55424C4520),
  (0x1D9EB, 0x5349474E57524954494E47204D4F56454D454E542D464C4F4F52504C414E452041524D20434952434C452048495454494E472057414C4C204D454449554D20444F55424C4520),
  (0x1D9EC, 0x5349474E57524954494E47204D4F56454D454E542D464C4F4F52504C414E452041524D20434952434C452048495454494E472057414C4C204C4152474520444F55424C4520),
  (0x1D9ED, 0x5349474E57524954494E47204D4F56454D454E542D57414C4C504C414E4520575249535420434952434C452046524F4E542053494E474C4520),
  (0x1D9EE, 0x5349474E57524954494E47204D4F56454D454E542D57414C4C504C414E4520575249535420434952434C452046524F4E5420444F55424C4520),
  (0x1D9EF, 0x5349474E57524954494E47204D4F56454D454E542D464C4F4F52504C414E4520575249535420434952434C452048495454494E472057414C4C2053494E474C4520),
  (0x1D9F0, 0x5349474E57524954494E47204D4F56454D454E542D464C4F4F52504C414E4520575249535420434952434C452048495454494E472057414C4C20444F55424C4520),
  (0x1D9F1, 0x5349474E57524954494E47204D4F56454D454E542D57414C4C504C414E452046494E47455220434952434C45532053494E474C4520),
  (0x1D9F2, 0x5349474E57524954494E47204D4F56454D454E542D57414C4C504C414E452046494E47455220434952434C455320444F55424C4520),
  (0x1D9F3, 0x5349474E57524954494E47204D4F56454D454E542D464C4F4F52504C414E452046494E47455220434952434C45532048495454494E472057414C4C2053494E474C4520),
  (0x1D9F4, 0x5349474E57524954494E47204D4F56454D454E542D464C4F4F52504C414E452046494E47455220434952434C45532048495454494E472057414C4C20444F55424C4520),
  (0x1D9F5, 0x5349474E57524954494E472044594E414D4943204152524F574845414420534D414C4C20),
  (0x1D9F6, 0x5349474E57524954494E472044594E414D4943204152524F5748454144204C4152474520),
  (0x1D9F7, 0x5349474E57524954494E472044594E414D4943204641535420),
  (0x1D9F8, 0x5349474E57524954494E472044594E414D494320534C4F5720),
  (0x1D9F9, 0x5349474E57524954494E472044594E414D49432054454E534520),
  (0x1D9FA, 0x5349474E57524954494E472044594E414D49432052454C4158454420),
  (0x1D9FB, 0x5349474E57524954494E472044594E414D49432053494D554C54414E454F555320),
  (0x1D9FC, 0x5349474E57524954494E472044594E414D49432053494D554C54414E454F555320414C5445524E4154494E4720),
  (0x1D9FD, 0x5349474E57524954494E472044594E414D4943204556455259204F544845522054494D4520),
  (0x1D9FE, 0x5349474E57524954494E472044594E414D4943204752414455414C20),
  (0x1D9FF, 0x5349474E57524954494E47204845414420),
  (0x1DA00, 0x5349474E57524954494E4720484541442052494D20),
  (0x1DA01, 0x5349474E57524954494E472048454144204D4F56454D454E542D57414C4C504C414E4520535452414947485420),
  (0x1DA02, 0x5349474E57524954494E472048454144204D4F56454D454E542D57414C4C504C414E452054494C5420),
  (0x1DA03, 0x5349474E57524954494E472048454144204D4F56454D454E542D464C4F4F52504C414E4520535452414947485420),
  (0x1DA04, 0x5349474E57524954494E472048454144204D4F56454D454E542D57414C4C504C414E4520435552564520),
  (0x1DA05, 0x5349474E57524954494E472048454144204D4F56454D454E542D464C4F4F52504C414E4520435552564520),
  (0x1DA06, 0x5349474E57524954494E472048454144204D4F56454D454E5420434952434C4520),
  (0x1DA07, 0x5349474E57524954494E47204641434520444952454354494F4E20504F534954494F4E204E4F534520464F52574152442054494C54494E4720),
  (0x1DA08, 0x5349474E57524954494E47204641434520444952454354494F4E20504F534954494F4E204E4F5345205550204F5220444F574E20),
  (0x1DA09, 0x5349474E57524954494E47204641434520444952454354494F4E20504F534954494F4E204E4F5345205550204F5220444F574E2054494C54494E4720)]
def names_438 : List (Nat × Nat) := [
  (0x1DA0A, 0x5349474E57524954494E472045594542524F575320535452414947485420555020),
  (0x1DA0B, 0x5349474E57524954494E472045594542524F5753205354524149474854204E45555452414C20),
  (0x1DA0C, 0x5349474E57524954494E472045594542524F575320535452414947485420444F574E20),
  (0x1DA0D, 0x5349474E57524954494E4720445245414D592045594542524F5753204E45555452414C20444F574E20),
  (0x1DA0E, 0x5349474E57524954494E4720445245414D592045594542524F575320444F574E204E45555452414C20),
  (0x1DA0F, 0x5349474E57524954494E4720445245414D592045594542524F5753205550204E45555452414C20),
  (0x1DA10, 0x5349474E57524954494E4720445245414D592045594542524F5753204E45555452414C20555020),
  (0x1DA11, 0x5349474E57524954494E4720464F524548454144204E45555452414C20),
  (0x1DA12, 0x5349474E57524954494E4720464F52454845414420434F4E5441435420),
  (0x1DA13, 0x5349474E57524954494E4720464F524548454144205752494E4B4C454420),
  (0x1DA14, 0x5349474E57524954494E472045594553204F50454E20),
  (0x1DA15, 0x5349474E57524954494E4720455945532053515545455A454420),
  (0x1DA16, 0x5349474E57524954494E47204559455320434C4F53454420),
  (0x1DA17, 0x5349474E57524954494E472045594520424C494E4B2053494E474C4520),
  (0x1DA18, 0x5349474E57524954494E472045594520424C494E4B204D554C5449504C4520),
  (0x1DA19, 0x5349474E57524954494E4720455945532048414C46204F50454E20),
  (0x1DA1A, 0x5349474E57524954494E4720455945532057494445204F50454E20),
  (0x1DA1B, 0x5349474E57524954494E4720455945532048414C4620434C4F53454420),
  (0x1DA1C, 0x5349474E57524954494E47204559455320574944454E494E47204D4F56454D454E5420),
  (0x1DA1D, 0x5349474E57524954494E47204559452057494E4B20),
  (0x1DA1E, 0x5349474E57524954494E47204559454C415348455320555020),
  (0x1DA1F, 0x5349474E57524954494E47204559454C415348455320444F574E20),
  (0x1DA20, 0x5349474E57524954494E47204559454C415348455320464C5554544552494E4720),
  (0x1DA21, 0x5349474E57524954494E472045594547415A452D57414C4C504C414E4520535452414947485420),
  (0x1DA22, 0x5349474E57524954494E472045594547415A452D57414C4C504C414E4520535452414947485420444F55424C4520),
  (0x1DA23, 0x5349474E57524954494E472045594547415A452D57414C4C504C414E4520535452414947485420414C5445524E4154494E4720),
  (0x1DA24, 0x5349474E57524954494E472045594547415A452D464C4F4F52504C414E4520535452414947485420),
  (0x1DA25, 0x5349474E57524954494E472045594547415A452D464C4F4F52504C414E4520535452414947485420444F55424C4520),
  (0x1DA26, 0x5349474E57524954494E472045594547415A452D464C4F4F52504C414E4520535452414947485420414C5445524E4154494E4720),
  (0x1DA27, 0x5349474E57524954494E472045594547415A452D57414C4C504C414E452043555256454420),
  (0x1DA28, 0x5349474E57524954494E472045594547415A452D464C4F4F52504C414E452043555256454420),
  (0x1DA29, 0x5349474E57524954494E472045594547415A452D57414C4C504C414E4520434952434C494E4720),
  (0x1DA2A, 0x5349474E57524954494E4720434845454B532050554646454420),
  (0x1DA2B, 0x5349474E57524954494E4720434845454B53204E45555452414C20),
  (0x1DA2C, 0x5349474E57524954494E4720434845454B53205355434B454420),
  (0x1DA2D, 0x5349474E57524954494E472054454E534520434845454B53204849474820),
  (0x1DA2E, 0x5349474E57524954494E472054454E534520434845454B53204D4944444C4520),
  (0x1DA2F, 0x5349474E57524954494E472054454E534520434845454B53204C4F5720),
  (0x1DA30, 0x5349474E57524954494E47204541525320),
  (0x1DA31, 0x5349474E57524954494E47204E4F5345204E45555452414C20),
  (0x1DA32, 0x5349474E57524954494E47204E4F534520434F4E5441435420),
  (0x1DA33, 0x5349474E57524954494E47204E4F5345205752494E4B4C455320),
  (0x1DA34, 0x5349474E57524954494E47204E4F534520574947474C455320),
  (0x1DA35, 0x5349474E57524954494E472041495220424C4F57494E47204F555420),
  (0x1DA36, 0x5349474E57524954494E4720414952205355434B494E4720494E20),
  (0x1DA37, 0x5349474E57524954494E472041495220424C4F5720534D414C4C20524F544154494F4E5320),
  (0x1DA38, 0x5349474E57524954494E4720414952205355434B20534D414C4C20524F544154494F4E5320),
  (0x1DA39, 0x5349474E57524954494E472042524541544820494E48414C4520),
  (0x1DA3A, 0x5349474E57524954494E472042524541544820455848414C4520),
  (0x1DA3B, 0x5349474E57524954494E47204D4F55544820434C4F534544204E45555452414C20),
  (0x1DA3C, 0x5349474E57524954494E47204D4F55544820434C4F53454420464F525741524420),
  (0x1DA3D, 0x5349474E57524954494E47204D4F55544820434C4F53454420434F4E5441435420),
  (0x1DA3E, 0x5349474E57524954494E47204D4F55544820534D494C4520),
  (0x1DA3F, 0x5349474E57524954494E47204D4F55544820534D494C45205752494E4B4C454420),
  (0x1DA40, 0x5349474E57524954494E47204D4F55544820534D494C45204F50454E20),
  (0x1DA41, 0x5349474E57524954494E47204D4F5554482046524F574E20),
  (0x1DA42, 0x5349474E57524954494E47204D4F5554482046524F574E205752494E4B4C454420),
  (0x1DA43, 0x5349474E57524954494E47204D4F5554482046524F574E204F50454E20),
  (0x1DA44, 0x5349474E57524954494E47204D4F555448204F50454E20434952434C4520),
  (0x1DA45, 0x5349474E57524954494E47204D4F555448204F50454E20464F525741524420),
  (0x1DA46, 0x5349474E57524954494E47204D4F555448204F50454E205752494E4B4C454420),
  (0x1DA47, 0x5349474E57524954494E47204D4F555448204F50454E204F56414C20),
  (0x1DA48, 0x5349474E57524954494E47204D4F555448204F50454E204F56414C205752494E4B4C454420),
  (0x1DA49, 0x5349474E57524954494E47204D4F555448204F50454E204F56414C205941574E20)]
def names_439 : List (Nat × Nat) := [
  (0x1DA4A, 0x5349474E57524954494E47204D4F555448204F50454E2052454354414E474C4520),
  (0x1DA4B, 0x5349474E57524954494E47204D4F555448204F50454E2052454354414E474C45205752494E4B4C454420),
  (0x1DA4C, 0x5349474E57524954494E47204D4F555448204F50454E2052454354414E474C45205941574E20),
  (0x1DA4D, 0x5349474E57524954494E47204D4F555448204B49535320),
  (0x1DA4E, 0x5349474E57524954494E47204D4F555448204B49535320464F525741524420),
  (0x1DA4F, 0x5349474E57524954494E47204D4F555448204B495353205752494E4B4C454420),
  (0x1DA50, 0x5349474E57524954494E47204D4F5554482054454E534520),
  (0x1DA51, 0x5349474E57524954494E47204D4F5554482054454E534520464F525741524420),
  (0x1DA52, 0x5349474E57524954494E47204D4F5554482054454E5345205355434B454420),
  (0x1DA53, 0x5349474E57524954494E47204C495053205052455353454420544F47455448455220),
  (0x1DA54, 0x5349474E57524954494E47204C4950204C4F574552204F56455220555050455220),
  (0x1DA55, 0x5349474E57524954494E47204C4950205550504552204F564552204C4F57455220),
  (0x1DA56, 0x5349474E57524954494E47204D4F55544820434F524E45525320),
  (0x1DA57, 0x5349474E57524954494E47204D4F555448205752494E4B4C45532053494E474C4520),
  (0x1DA58, 0x5349474E57524954494E47204D4F555448205752494E4B4C455320444F55424C4520),
  (0x1DA59, 0x5349474E57524954494E4720544F4E47554520535449434B494E47204F55542046415220),
  (0x1DA5A, 0x5349474E57524954494E4720544F4E475545204C49434B494E47204C49505320),
  (0x1DA5B, 0x5349474E57524954494E4720544F4E47554520544950204245545745454E204C49505320),
  (0x1DA5C, 0x5349474E57524954494E4720544F4E4755452054495020544F554348494E4720494E53494445204D4F55544820),
  (0x1DA5D, 0x5349474E57524954494E4720544F4E47554520494E53494445204D4F5554482052454C4158454420),
  (0x1DA5E, 0x5349474E57524954494E4720544F4E475545204D4F56455320414741494E535420434845454B20),
  (0x1DA5F, 0x5349474E57524954494E4720544F4E4755452043454E54524520535449434B494E47204F555420),
  (0x1DA60, 0x5349474E57524954494E4720544F4E4755452043454E54524520494E53494445204D4F55544820),
  (0x1DA61, 0x5349474E57524954494E4720544545544820),
  (0x1DA62, 0x5349474E57524954494E47205445455448204D4F56454D454E5420),
  (0x1DA63, 0x5349474E57524954494E47205445455448204F4E20544F4E47554520),
  (0x1DA64, 0x5349474E57524954494E47205445455448204F4E20544F4E475545204D4F56454D454E5420),
  (0x1DA65, 0x5349474E57524954494E47205445455448204F4E204C49505320),
  (0x1DA66, 0x5349474E57524954494E47205445455448204F4E204C495053204D4F56454D454E5420),
  (0x1DA67, 0x5349474E57524954494E472054454554482042495445204C49505320),
  (0x1DA68, 0x5349474E57524954494E47204D4F56454D454E542D57414C4C504C414E45204A415720),
  (0x1DA69, 0x5349474E57524954494E47204D4F56454D454E542D464C4F4F52504C414E45204A415720),
  (0x1DA6A, 0x5349474E57524954494E47204E45434B20),
  (0x1DA6B, 0x5349474E57524954494E47204841495220),
  (0x1DA6C, 0x5349474E57524954494E47204558434954454D454E5420),
  (0x1DA6D, 0x5349474E57524954494E472053484F554C44455220484950205350494E4520),
  (0x1DA6E, 0x5349474E57524954494E472053484F554C4445522048495020504F534954494F4E5320),
  (0x1DA6F, 0x5349474E57524954494E472057414C4C504C414E452053484F554C44455220484950204D4F564520),
  (0x1DA70, 0x5349474E57524954494E4720464C4F4F52504C414E452053484F554C44455220484950204D4F564520),
  (0x1DA71, 0x5349474E57524954494E472053484F554C4445522054494C54494E472046524F4D20574149535420),
  (0x1DA72, 0x5349474E57524954494E4720544F52534F2D57414C4C504C414E45205354524149474854205354524554434820),
  (0x1DA73, 0x5349474E57524954494E4720544F52534F2D57414C4C504C414E45204355525645442042454E4420),
  (0x1DA74, 0x5349474E57524954494E4720544F52534F2D464C4F4F52504C414E45205457495354494E4720),
  (0x1DA75, 0x5349474E57524954494E4720555050455220424F44592054494C54494E472046524F4D20484950204A4F494E545320),
  (0x1DA76, 0x5349474E57524954494E47204C494D4220434F4D42494E4154494F4E20),
  (0x1DA77, 0x5349474E57524954494E47204C494D42204C454E4754482D3120),
  (0x1DA78, 0x5349474E57524954494E47204C494D42204C454E4754482D3220),
  (0x1DA79, 0x5349474E57524954494E47204C494D42204C454E4754482D3320),
  (0x1DA7A, 0x5349474E57524954494E47204C494D42204C454E4754482D3420),
  (0x1DA7B, 0x5349474E57524954494E47204C494D42204C454E4754482D3520),
  (0x1DA7C, 0x5349474E57524954494E47204C494D42204C454E4754482D3620),
  (0x1DA7D, 0x5349474E57524954494E47204C494D42204C454E4754482D3720),
  (0x1DA7E, 0x5349474E57524954494E472046494E47455220),
  (0x1DA7F, 0x5349474E57524954494E47204C4F434154494F4E2D57414C4C504C414E4520535041434520),
  (0x1DA80, 0x5349474E57524954494E47204C4F434154494F4E2D464C4F4F52504C414E4520535041434520),
  (0x1DA81, 0x5349474E57524954494E47204C4F434154494F4E2048454947485420),
  (0x1DA82, 0x5349474E57524954494E47204C4F434154494F4E20574944544820),
  (0x1DA83, 0x5349474E57524954494E47204C4F434154494F4E20444550544820),
  (0x1DA84, 0x5349474E57524954494E47204C4F434154494F4E2048454144204E45434B20),
  (0x1DA85, 0x5349474E57524954494E47204C4F434154494F4E20544F52534F20),
  (0x1DA86, 0x5349474E57524954494E47204C4F434154494F4E204C494D42532044494749545320),
  (0x1DA87, 0x5349474E57524954494E4720434F4D4D4120),
  (0x1DA88, 0x5349474E57524954494E472046554C4C2053544F5020),
  (0x1DA89, 0x5349474E57524954494E472053454D49434F4C4F4E20)]
def names_440 : List (Nat × Nat) := [
  (0x1DA8A, 0x5349474E57524954494E4720434F4C4F4E20),
  (0x1DA8B, 0x5349474E57524954494E4720504152454E54484553495320),
  (0x1DA9B, 0x5349474E57524954494E472046494C4C204D4F4449464945522D3220),
  (0x1DA9C, 0x5349474E57524954494E472046494C4C204D4F4449464945522D3320),
  (0x1DA9D, 0x5349474E57524954494E472046494C4C204D4F4449464945522D3420),
  (0x1DA9E, 0x5349474E57524954494E472046494C4C204D4F4449464945522D3520),
  (0x1DA9F, 0x5349474E57524954494E472046494C4C204D4F4449464945522D3620),
  (0x1DAA1, 0x5349474E57524954494E4720524F544154494F4E204D4F4449464945522D3220),
  (0x1DAA2, 0x5349474E57524954494E4720524F544154494F4E204D4F4449464945522D3320),
  (0x1DAA3, 0x5349474E57524954494E4720524F544154494F4E204D4F4449464945522D3420),
  (0x1DAA4, 0x5349474E57524954494E4720524F544154494F4E204D4F4449464945522D3520),
  (0x1DAA5, 0x5349474E57524954494E4720524F544154494F4E204D4F4449464945522D3620),
  (0x1DAA6, 0x5349474E57524954494E4720524F544154494F4E204D4F4449464945522D3720),
  (0x1DAA7, 0x5349474E57524954494E4720524F544154494F4E204D4F4449464945522D3820),
  (0x1DAA8, 0x5349474E57524954494E4720524F544154494F4E204D4F4449464945522D3920),
  (0x1DAA9, 0x5349474E57524954494E4720524F544154494F4E204D4F4449464945522D313020),
  (0x1DAAA, 0x5349474E57524954494E4720524F544154494F4E204D4F4449464945522D313120),
  (0x1DAAB, 0x5349474E57524954494E4720524F544154494F4E204D4F4449464945522D313220),
  (0x1DAAC, 0x5349474E57524954494E4720524F544154494F4E204D4F4449464945522D313320),
  (0x1DAAD, 0x5349474E57524954494E4720524F544154494F4E204D4F4449464945522D313420),
  (0x1DAAE, 0x5349474E57524954494E4720524F544154494F4E204D4F4449464945522D313520),
  (0x1DAAF, 0x5349474E57524954494E4720524F544154494F4E204D4F4449464945522D313620),
  (0x1E000, 0x434F4D42494E494E4720474C41474F4C49544943204C455454455220415A5520),
  (0x1E001, 0x434F4D42494E494E4720474C41474F4C49544943204C45545445522042554B5920),
  (0x1E002, 0x434F4D42494E494E4720474C41474F4C49544943204C4554544552205645444520),
  (0x1E003, 0x434F4D42494E494E4720474C41474F4C49544943204C455454455220474C41474F4C4920),
  (0x1E004, 0x434F4D42494E494E4720474C41474F4C49544943204C455454455220444F42524F20),
  (0x1E005, 0x434F4D42494E494E4720474C41474F4C49544943204C455454455220594553545520),
  (0x1E006, 0x434F4D42494E494E4720474C41474F4C49544943204C4554544552205A48495645544520),
  (0x1E008, 0x434F4D42494E494E4720474C41474F4C49544943204C4554544552205A454D4C4A4120),
  (0x1E009, 0x434F4D42494E494E4720474C41474F4C49544943204C455454455220495A484520),
  (0x1E00A, 0x434F4D42494E494E4720474C41474F4C49544943204C455454455220494E495449414C20495A484520),
  (0x1E00B, 0x434F4D42494E494E4720474C41474F4C49544943204C4554544552204920),
  (0x1E00C, 0x434F4D42494E494E4720474C41474F4C49544943204C455454455220444A4552564920),
  (0x1E00D, 0x434F4D42494E494E4720474C41474F4C49544943204C4554544552204B414B4F20),
  (0x1E00E, 0x434F4D42494E494E4720474C41474F4C49544943204C4554544552204C4A5544494A4520),
  (0x1E00F, 0x434F4D42494E494E4720474C41474F4C49544943204C4554544552204D59534C49544520),
  (0x1E010, 0x434F4D42494E494E4720474C41474F4C49544943204C4554544552204E4153484920),
  (0x1E011, 0x434F4D42494E494E4720474C41474F4C49544943204C4554544552204F4E5520),
  (0x1E012, 0x434F4D42494E494E4720474C41474F4C49544943204C455454455220504F4B4F4A4920),
  (0x1E013, 0x434F4D42494E494E4720474C41474F4C49544943204C455454455220524954534920),
  (0x1E014, 0x434F4D42494E494E4720474C41474F4C49544943204C455454455220534C4F564F20),
  (0x1E015, 0x434F4D42494E494E4720474C41474F4C49544943204C45545445522054565249444F20),
  (0x1E016, 0x434F4D42494E494E4720474C41474F4C49544943204C455454455220554B5520),
  (0x1E017, 0x434F4D42494E494E4720474C41474F4C49544943204C455454455220465249545520),
  (0x1E018, 0x434F4D42494E494E4720474C41474F4C49544943204C4554544552204845525520),
  (0x1E01B, 0x434F4D42494E494E4720474C41474F4C49544943204C4554544552205348544120),
  (0x1E01C, 0x434F4D42494E494E4720474C41474F4C49544943204C45545445522054534920),
  (0x1E01D, 0x434F4D42494E494E4720474C41474F4C49544943204C45545445522043485249564920),
  (0x1E01E, 0x434F4D42494E494E4720474C41474F4C49544943204C45545445522053484120),
  (0x1E01F, 0x434F4D42494E494E4720474C41474F4C49544943204C4554544552205945525520),
  (0x1E020, 0x434F4D42494E494E4720474C41474F4C49544943204C4554544552205945524920),
  (0x1E021, 0x434F4D42494E494E4720474C41474F4C49544943204C4554544552205941544920),
  (0x1E023, 0x434F4D42494E494E4720474C41474F4C49544943204C455454455220595520),
  (0x1E024, 0x434F4D42494E494E4720474C41474F4C49544943204C455454455220534D414C4C2059555320),
  (0x1E026, 0x434F4D42494E494E4720474C41474F4C49544943204C455454455220594F20),
  (0x1E027, 0x434F4D42494E494E4720474C41474F4C49544943204C455454455220494F544154454420534D414C4C2059555320),
  (0x1E028, 0x434F4D42494E494E4720474C41474F4C49544943204C4554544552204249472059555320),
  (0x1E029, 0x434F4D42494E494E4720474C41474F4C49544943204C455454455220494F5441544544204249472059555320),
  (0x1E02A, 0x434F4D42494E494E4720474C41474F4C49544943204C4554544552204649544120),
  (0x1E800, 0x4D454E4445204B494B414B55492053594C4C41424C45204D303031204B4920),
  (0x1E801, 0x4D454E4445204B494B414B55492053594C4C41424C45204D303032204B4120),
  (0x1E802, 0x4D454E4445204B494B414B55492053594C4C41424C45204D303033204B5520),
  (0x1E803, 0x4D454E4445204B494B414B55492053594C4C41424C45204D303635204B454520)]
def names_441 : List (Nat × Nat) := [
  (0x1E804, 0x4D454E4445204B494B414B55492053594C4C41424C45204D303935204B4520),
  (0x1E805, 0x4D454E4445204B494B414B55492053594C4C41424C45204D303736204B4F4F20),
  (0x1E806, 0x4D454E4445204B494B414B55492053594C4C41424C45204D303438204B4F20),
  (0x1E807, 0x4D454E4445204B494B414B55492053594C4C41424C45204D313739204B554120),
  (0x1E808, 0x4D454E4445204B494B414B55492053594C4C41424C45204D30303420574920),
  (0x1E809, 0x4D454E4445204B494B414B55492053594C4C41424C45204D30303520574120),
  (0x1E80A, 0x4D454E4445204B494B414B55492053594C4C41424C45204D30303620575520),
  (0x1E80B, 0x4D454E4445204B494B414B55492053594C4C41424C45204D3132362057454520),
  (0x1E80C, 0x4D454E4445204B494B414B55492053594C4C41424C45204D31313820574520),
  (0x1E80D, 0x4D454E4445204B494B414B55492053594C4C41424C45204D31313420574F4F20),
  (0x1E80E, 0x4D454E4445204B494B414B55492053594C4C41424C45204D30343520574F20),
  (0x1E80F, 0x4D454E4445204B494B414B55492053594C4C41424C45204D3139342057554920),
  (0x1E810, 0x4D454E4445204B494B414B55492053594C4C41424C45204D3134332057454920),
  (0x1E811, 0x4D454E4445204B494B414B55492053594C4C41424C45204D3036312057564920),
  (0x1E812, 0x4D454E4445204B494B414B55492053594C4C41424C45204D3034392057564120),
  (0x1E813, 0x4D454E4445204B494B414B55492053594C4C41424C45204D3133392057564520),
  (0x1E814, 0x4D454E4445204B494B414B55492053594C4C41424C45204D303037204D494E20),
  (0x1E815, 0x4D454E4445204B494B414B55492053594C4C41424C45204D303038204D414E20),
  (0x1E816, 0x4D454E4445204B494B414B55492053594C4C41424C45204D303039204D554E20),
  (0x1E817, 0x4D454E4445204B494B414B55492053594C4C41424C45204D303539204D454E20),
  (0x1E818, 0x4D454E4445204B494B414B55492053594C4C41424C45204D303934204D4F4E20),
  (0x1E819, 0x4D454E4445204B494B414B55492053594C4C41424C45204D313534204D55414E20),
  (0x1E81A, 0x4D454E4445204B494B414B55492053594C4C41424C45204D313839204D55454E20),
  (0x1E81B, 0x4D454E4445204B494B414B55492053594C4C41424C45204D30313020424920),
  (0x1E81C, 0x4D454E4445204B494B414B55492053594C4C41424C45204D30313120424120),
  (0x1E81D, 0x4D454E4445204B494B414B55492053594C4C41424C45204D30313220425520),
  (0x1E81E, 0x4D454E4445204B494B414B55492053594C4C41424C45204D3135302042454520),
  (0x1E81F, 0x4D454E4445204B494B414B55492053594C4C41424C45204D30393720424520),
  (0x1E820, 0x4D454E4445204B494B414B55492053594C4C41424C45204D31303320424F4F20),
  (0x1E821, 0x4D454E4445204B494B414B55492053594C4C41424C45204D31333820424F20),
  (0x1E822, 0x4D454E4445204B494B414B55492053594C4C41424C45204D303133204920),
  (0x1E823, 0x4D454E4445204B494B414B55492053594C4C41424C45204D303134204120),
  (0x1E824, 0x4D454E4445204B494B414B55492053594C4C41424C45204D303135205520),
  (0x1E825, 0x4D454E4445204B494B414B55492053594C4C41424C45204D31363320454520),
  (0x1E826, 0x4D454E4445204B494B414B55492053594C4C41424C45204D313030204520),
  (0x1E827, 0x4D454E4445204B494B414B55492053594C4C41424C45204D313635204F4F20),
  (0x1E828, 0x4D454E4445204B494B414B55492053594C4C41424C45204D313437204F20),
  (0x1E829, 0x4D454E4445204B494B414B55492053594C4C41424C45204D31333720454920),
  (0x1E82A, 0x4D454E4445204B494B414B55492053594C4C41424C45204D31333120494E20),
  (0x1E82B, 0x4D454E4445204B494B414B55492053594C4C41424C45204D31333520494E20),
  (0x1E82C, 0x4D454E4445204B494B414B55492053594C4C41424C45204D31393520414E20),
  (0x1E82D, 0x4D454E4445204B494B414B55492053594C4C41424C45204D31373820454E20),
  (0x1E82E, 0x4D454E4445204B494B414B55492053594C4C41424C45204D30313920534920),
  (0x1E82F, 0x4D454E4445204B494B414B55492053594C4C41424C45204D30323020534120),
  (0x1E830, 0x4D454E4445204B494B414B55492053594C4C41424C45204D30323120535520),
  (0x1E831, 0x4D454E4445204B494B414B55492053594C4C41424C45204D3136322053454520),
  (0x1E832, 0x4D454E4445204B494B414B55492053594C4C41424C45204D31313620534520),
  (0x1E833, 0x4D454E4445204B494B414B55492053594C4C41424C45204D31333620534F4F20),
  (0x1E834, 0x4D454E4445204B494B414B55492053594C4C41424C45204D30373920534F20),
  (0x1E835, 0x4D454E4445204B494B414B55492053594C4C41424C45204D3139362053494120),
  (0x1E836, 0x4D454E4445204B494B414B55492053594C4C41424C45204D303235204C4920),
  (0x1E837, 0x4D454E4445204B494B414B55492053594C4C41424C45204D303236204C4120),
  (0x1E838, 0x4D454E4445204B494B414B55492053594C4C41424C45204D303237204C5520),
  (0x1E839, 0x4D454E4445204B494B414B55492053594C4C41424C45204D303834204C454520),
  (0x1E83A, 0x4D454E4445204B494B414B55492053594C4C41424C45204D303733204C4520),
  (0x1E83B, 0x4D454E4445204B494B414B55492053594C4C41424C45204D303534204C4F4F20),
  (0x1E83C, 0x4D454E4445204B494B414B55492053594C4C41424C45204D313533204C4F20),
  (0x1E83D, 0x4D454E4445204B494B414B55492053594C4C41424C45204D313130204C4F4E47204C4520),
  (0x1E83E, 0x4D454E4445204B494B414B55492053594C4C41424C45204D30313620444920),
  (0x1E83F, 0x4D454E4445204B494B414B55492053594C4C41424C45204D30313720444120),
  (0x1E840, 0x4D454E4445204B494B414B55492053594C4C41424C45204D30313820445520),
  (0x1E841, 0x4D454E4445204B494B414B55492053594C4C41424C45204D3038392044454520),
  (0x1E842, 0x4D454E4445204B494B414B55492053594C4C41424C45204D31383020444F4F20),
  (0x1E843, 0x4D454E4445204B494B414B55492053594C4C41424C45204D31383120444F20)]
def names_442 : List (Nat × Nat) := [
  (0x1E844, 0x4D454E4445204B494B414B55492053594C4C41424C45204D30323220544920),
  (0x1E845, 0x4D454E4445204B494B414B55492053594C4C41424C45204D30323320544120),
  (0x1E846, 0x4D454E4445204B494B414B55492053594C4C41424C45204D30323420545520),
  (0x1E847, 0x4D454E4445204B494B414B55492053594C4C41424C45204D3039312054454520),
  (0x1E848, 0x4D454E4445204B494B414B55492053594C4C41424C45204D30353520544520),
  (0x1E849, 0x4D454E4445204B494B414B55492053594C4C41424C45204D31303420544F4F20),
  (0x1E84A, 0x4D454E4445204B494B414B55492053594C4C41424C45204D30363920544F20),
  (0x1E84B, 0x4D454E4445204B494B414B55492053594C4C41424C45204D303238204A4920),
  (0x1E84C, 0x4D454E4445204B494B414B55492053594C4C41424C45204D303239204A4120),
  (0x1E84D, 0x4D454E4445204B494B414B55492053594C4C41424C45204D303330204A5520),
  (0x1E84E, 0x4D454E4445204B494B414B55492053594C4C41424C45204D313537204A454520),
  (0x1E84F, 0x4D454E4445204B494B414B55492053594C4C41424C45204D313133204A4520),
  (0x1E850, 0x4D454E4445204B494B414B55492053594C4C41424C45204D313630204A4F4F20),
  (0x1E851, 0x4D454E4445204B494B414B55492053594C4C41424C45204D303633204A4F20),
  (0x1E852, 0x4D454E4445204B494B414B55492053594C4C41424C45204D313735204C4F4E47204A4F20),
  (0x1E853, 0x4D454E4445204B494B414B55492053594C4C41424C45204D30333120594920),
  (0x1E854, 0x4D454E4445204B494B414B55492053594C4C41424C45204D30333220594120),
  (0x1E855, 0x4D454E4445204B494B414B55492053594C4C41424C45204D30333320595520),
  (0x1E856, 0x4D454E4445204B494B414B55492053594C4C41424C45204D3130392059454520),
  (0x1E857, 0x4D454E4445204B494B414B55492053594C4C41424C45204D30383020594520),
  (0x1E858, 0x4D454E4445204B494B414B55492053594C4C41424C45204D31343120594F4F20),
  (0x1E859, 0x4D454E4445204B494B414B55492053594C4C41424C45204D31323120594F20),
  (0x1E85A, 0x4D454E4445204B494B414B55492053594C4C41424C45204D30333420464920),
  (0x1E85B, 0x4D454E4445204B494B414B55492053594C4C41424C45204D30333520464120),
  (0x1E85C, 0x4D454E4445204B494B414B55492053594C4C41424C45204D30333620465520),
  (0x1E85D, 0x4D454E4445204B494B414B55492053594C4C41424C45204D3037382046454520),
  (0x1E85E, 0x4D454E4445204B494B414B55492053594C4C41424C45204D30373520464520),
  (0x1E85F, 0x4D454E4445204B494B414B55492053594C4C41424C45204D31333320464F4F20),
  (0x1E860, 0x4D454E4445204B494B414B55492053594C4C41424C45204D30383820464F20),
  (0x1E861, 0x4D454E4445204B494B414B55492053594C4C41424C45204D3139372046554120),
  (0x1E862, 0x4D454E4445204B494B414B55492053594C4C41424C45204D3130312046414E20),
  (0x1E863, 0x4D454E4445204B494B414B55492053594C4C41424C45204D303337204E494E20),
  (0x1E864, 0x4D454E4445204B494B414B55492053594C4C41424C45204D303338204E414E20),
  (0x1E865, 0x4D454E4445204B494B414B55492053594C4C41424C45204D303339204E554E20),
  (0x1E866, 0x4D454E4445204B494B414B55492053594C4C41424C45204D313137204E454E20),
  (0x1E867, 0x4D454E4445204B494B414B55492053594C4C41424C45204D313639204E4F4E20),
  (0x1E868, 0x4D454E4445204B494B414B55492053594C4C41424C45204D31373620484920),
  (0x1E869, 0x4D454E4445204B494B414B55492053594C4C41424C45204D30343120484120),
  (0x1E86A, 0x4D454E4445204B494B414B55492053594C4C41424C45204D31383620485520),
  (0x1E86B, 0x4D454E4445204B494B414B55492053594C4C41424C45204D3034302048454520),
  (0x1E86C, 0x4D454E4445204B494B414B55492053594C4C41424C45204D30393620484520),
  (0x1E86D, 0x4D454E4445204B494B414B55492053594C4C41424C45204D30343220484F4F20),
  (0x1E86E, 0x4D454E4445204B494B414B55492053594C4C41424C45204D31343020484F20),
  (0x1E86F, 0x4D454E4445204B494B414B55492053594C4C41424C45204D303833204845454920),
  (0x1E870, 0x4D454E4445204B494B414B55492053594C4C41424C45204D31323820484F4F5520),
  (0x1E871, 0x4D454E4445204B494B414B55492053594C4C41424C45204D3035332048494E20),
  (0x1E872, 0x4D454E4445204B494B414B55492053594C4C41424C45204D3133302048414E20),
  (0x1E873, 0x4D454E4445204B494B414B55492053594C4C41424C45204D3038372048554E20),
  (0x1E874, 0x4D454E4445204B494B414B55492053594C4C41424C45204D3035322048454E20),
  (0x1E875, 0x4D454E4445204B494B414B55492053594C4C41424C45204D31393320484F4E20),
  (0x1E876, 0x4D454E4445204B494B414B55492053594C4C41424C45204D303436204855414E20),
  (0x1E877, 0x4D454E4445204B494B414B55492053594C4C41424C45204D303930204E47474920),
  (0x1E878, 0x4D454E4445204B494B414B55492053594C4C41424C45204D303433204E47474120),
  (0x1E879, 0x4D454E4445204B494B414B55492053594C4C41424C45204D303832204E47475520),
  (0x1E87A, 0x4D454E4445204B494B414B55492053594C4C41424C45204D313135204E4747454520),
  (0x1E87B, 0x4D454E4445204B494B414B55492053594C4C41424C45204D313436204E47474520),
  (0x1E87C, 0x4D454E4445204B494B414B55492053594C4C41424C45204D313536204E47474F4F20),
  (0x1E87D, 0x4D454E4445204B494B414B55492053594C4C41424C45204D313230204E47474F20),
  (0x1E87E, 0x4D454E4445204B494B414B55492053594C4C41424C45204D313539204E4747414120),
  (0x1E87F, 0x4D454E4445204B494B414B55492053594C4C41424C45204D313237204E4747554120),
  (0x1E880, 0x4D454E4445204B494B414B55492053594C4C41424C45204D303836204C4F4E47204E47474520),
  (0x1E881, 0x4D454E4445204B494B414B55492053594C4C41424C45204D313036204C4F4E47204E47474F4F20),
  (0x1E882, 0x4D454E4445204B494B414B55492053594C4C41424C45204D313833204C4F4E47204E47474F20),
  (0x1E883, 0x4D454E4445204B494B414B55492053594C4C41424C45204D31353520474920)]
def names_443 : List (Nat × Nat) := [
  (0x1E884, 0x4D454E4445204B494B414B55492053594C4C41424C45204D31313120474120),
  (0x1E885, 0x4D454E4445204B494B414B55492053594C4C41424C45204D31363820475520),
  (0x1E886, 0x4D454E4445204B494B414B55492053594C4C41424C45204D3139302047454520),
  (0x1E887, 0x4D454E4445204B494B414B55492053594C4C41424C45204D313636204755454920),
  (0x1E888, 0x4D454E4445204B494B414B55492053594C4C41424C45204D313637204755414E20),
  (0x1E889, 0x4D454E4445204B494B414B55492053594C4C41424C45204D313834204E47454E20),
  (0x1E88A, 0x4D454E4445204B494B414B55492053594C4C41424C45204D303537204E474F4E20),
  (0x1E88B, 0x4D454E4445204B494B414B55492053594C4C41424C45204D313737204E4755414E20),
  (0x1E88C, 0x4D454E4445204B494B414B55492053594C4C41424C45204D30363820504920),
  (0x1E88D, 0x4D454E4445204B494B414B55492053594C4C41424C45204D30393920504120),
  (0x1E88E, 0x4D454E4445204B494B414B55492053594C4C41424C45204D30353020505520),
  (0x1E88F, 0x4D454E4445204B494B414B55492053594C4C41424C45204D3038312050454520),
  (0x1E890, 0x4D454E4445204B494B414B55492053594C4C41424C45204D30353120504520),
  (0x1E891, 0x4D454E4445204B494B414B55492053594C4C41424C45204D31303220504F4F20),
  (0x1E892, 0x4D454E4445204B494B414B55492053594C4C41424C45204D30363620504F20),
  (0x1E893, 0x4D454E4445204B494B414B55492053594C4C41424C45204D313435204D424920),
  (0x1E894, 0x4D454E4445204B494B414B55492053594C4C41424C45204D303632204D424120),
  (0x1E895, 0x4D454E4445204B494B414B55492053594C4C41424C45204D313232204D425520),
  (0x1E896, 0x4D454E4445204B494B414B55492053594C4C41424C45204D303437204D42454520),
  (0x1E897, 0x4D454E4445204B494B414B55492053594C4C41424C45204D313838204D42454520),
  (0x1E898, 0x4D454E4445204B494B414B55492053594C4C41424C45204D303732204D424520),
  (0x1E899, 0x4D454E4445204B494B414B55492053594C4C41424C45204D313732204D424F4F20),
  (0x1E89A, 0x4D454E4445204B494B414B55492053594C4C41424C45204D313734204D424F20),
  (0x1E89B, 0x4D454E4445204B494B414B55492053594C4C41424C45204D313837204D42555520),
  (0x1E89C, 0x4D454E4445204B494B414B55492053594C4C41424C45204D313631204C4F4E47204D424520),
  (0x1E89D, 0x4D454E4445204B494B414B55492053594C4C41424C45204D313035204C4F4E47204D424F4F20),
  (0x1E89E, 0x4D454E4445204B494B414B55492053594C4C41424C45204D313432204C4F4E47204D424F20),
  (0x1E89F, 0x4D454E4445204B494B414B55492053594C4C41424C45204D313332204B504920),
  (0x1E8A0, 0x4D454E4445204B494B414B55492053594C4C41424C45204D303932204B504120),
  (0x1E8A1, 0x4D454E4445204B494B414B55492053594C4C41424C45204D303734204B505520),
  (0x1E8A2, 0x4D454E4445204B494B414B55492053594C4C41424C45204D303434204B50454520),
  (0x1E8A3, 0x4D454E4445204B494B414B55492053594C4C41424C45204D313038204B504520),
  (0x1E8A4, 0x4D454E4445204B494B414B55492053594C4C41424C45204D313132204B504F4F20),
  (0x1E8A5, 0x4D454E4445204B494B414B55492053594C4C41424C45204D313538204B504F20),
  (0x1E8A6, 0x4D454E4445204B494B414B55492053594C4C41424C45204D3132342047424920),
  (0x1E8A7, 0x4D454E4445204B494B414B55492053594C4C41424C45204D3035362047424120),
  (0x1E8A8, 0x4D454E4445204B494B414B55492053594C4C41424C45204D3134382047425520),
  (0x1E8A9, 0x4D454E4445204B494B414B55492053594C4C41424C45204D303933204742454520),
  (0x1E8AA, 0x4D454E4445204B494B414B55492053594C4C41424C45204D3130372047424520),
  (0x1E8AB, 0x4D454E4445204B494B414B55492053594C4C41424C45204D3037312047424F4F20),
  (0x1E8AC, 0x4D454E4445204B494B414B55492053594C4C41424C45204D3037302047424F20),
  (0x1E8AD, 0x4D454E4445204B494B414B55492053594C4C41424C45204D31373120524120),
  (0x1E8AE, 0x4D454E4445204B494B414B55492053594C4C41424C45204D313233204E444920),
  (0x1E8AF, 0x4D454E4445204B494B414B55492053594C4C41424C45204D313239204E444120),
  (0x1E8B0, 0x4D454E4445204B494B414B55492053594C4C41424C45204D313235204E445520),
  (0x1E8B1, 0x4D454E4445204B494B414B55492053594C4C41424C45204D313931204E44454520),
  (0x1E8B2, 0x4D454E4445204B494B414B55492053594C4C41424C45204D313139204E444520),
  (0x1E8B3, 0x4D454E4445204B494B414B55492053594C4C41424C45204D303637204E444F4F20),
  (0x1E8B4, 0x4D454E4445204B494B414B55492053594C4C41424C45204D303634204E444F20),
  (0x1E8B5, 0x4D454E4445204B494B414B55492053594C4C41424C45204D313532204E4A4120),
  (0x1E8B6, 0x4D454E4445204B494B414B55492053594C4C41424C45204D313932204E4A5520),
  (0x1E8B7, 0x4D454E4445204B494B414B55492053594C4C41424C45204D313439204E4A454520),
  (0x1E8B8, 0x4D454E4445204B494B414B55492053594C4C41424C45204D313334204E4A4F4F20),
  (0x1E8B9, 0x4D454E4445204B494B414B55492053594C4C41424C45204D31383220564920),
  (0x1E8BA, 0x4D454E4445204B494B414B55492053594C4C41424C45204D31383520564120),
  (0x1E8BB, 0x4D454E4445204B494B414B55492053594C4C41424C45204D31353120565520),
  (0x1E8BC, 0x4D454E4445204B494B414B55492053594C4C41424C45204D3137332056454520),
  (0x1E8BD, 0x4D454E4445204B494B414B55492053594C4C41424C45204D30383520564520),
  (0x1E8BE, 0x4D454E4445204B494B414B55492053594C4C41424C45204D31343420564F4F20),
  (0x1E8BF, 0x4D454E4445204B494B414B55492053594C4C41424C45204D30373720564F20),
  (0x1E8C0, 0x4D454E4445204B494B414B55492053594C4C41424C45204D313634204E59494E20),
  (0x1E8C1, 0x4D454E4445204B494B414B55492053594C4C41424C45204D303538204E59414E20),
  (0x1E8C2, 0x4D454E4445204B494B414B55492053594C4C41424C45204D313730204E59554E20),
  (0x1E8C3, 0x4D454E4445204B494B414B55492053594C4C41424C45204D303938204E59454E20)]
def names_444 : List (Nat × Nat) := [
  (0x1E8C4, 0x4D454E4445204B494B414B55492053594C4C41424C45204D303630204E594F4E20),
  (0x1E8C7, 0x4D454E4445204B494B414B5549204449474954204F4E4520),
  (0x1E8C8, 0x4D454E4445204B494B414B55492044494749542054574F20),
  (0x1E8C9, 0x4D454E4445204B494B414B554920444947495420544852454520),
  (0x1E8CA, 0x4D454E4445204B494B414B554920444947495420464F555220),
  (0x1E8CB, 0x4D454E4445204B494B414B5549204449474954204649564520),
  (0x1E8CC, 0x4D454E4445204B494B414B55492044494749542053495820),
  (0x1E8CD, 0x4D454E4445204B494B414B554920444947495420534556454E20),
  (0x1E8CE, 0x4D454E4445204B494B414B554920444947495420454947485420),
  (0x1E8CF, 0x4D454E4445204B494B414B5549204449474954204E494E4520),
  (0x1E8D0, 0x4D454E4445204B494B414B554920434F4D42494E494E47204E554D424552205445454E5320),
  (0x1E8D1, 0x4D454E4445204B494B414B554920434F4D42494E494E47204E554D4245522054454E5320),
  (0x1E8D2, 0x4D454E4445204B494B414B554920434F4D42494E494E47204E554D4245522048554E445245445320),
  (0x1E8D3, 0x4D454E4445204B494B414B554920434F4D42494E494E47204E554D4245522054484F5553414E445320),
  (0x1E8D4, 0x4D454E4445204B494B414B554920434F4D42494E494E47204E554D4245522054454E2054484F5553414E445320),
  (0x1E8D5, 0x4D454E4445204B494B414B554920434F4D42494E494E47204E554D4245522048554E445245442054484F5553414E445320),
  (0x1E8D6, 0x4D454E4445204B494B414B554920434F4D42494E494E47204E554D424552204D494C4C494F4E5320),
  (0x1E900, 0x41444C414D204341504954414C204C455454455220414C494620),
  (0x1E901, 0x41444C414D204341504954414C204C4554544552204441414C4920),
  (0x1E902, 0x41444C414D204341504954414C204C4554544552204C41414D20),
  (0x1E903, 0x41444C414D204341504954414C204C4554544552204D49494D20),
  (0x1E904, 0x41444C414D204341504954414C204C455454455220424120),
  (0x1E905, 0x41444C414D204341504954414C204C45545445522053494E4E59494959484520),
  (0x1E906, 0x41444C414D204341504954414C204C455454455220504520),
  (0x1E907, 0x41444C414D204341504954414C204C45545445522042484520),
  (0x1E908, 0x41444C414D204341504954414C204C455454455220524120),
  (0x1E909, 0x41444C414D204341504954414C204C4554544552204520),
  (0x1E90A, 0x41444C414D204341504954414C204C455454455220464120),
  (0x1E90B, 0x41444C414D204341504954414C204C4554544552204920),
  (0x1E90C, 0x41444C414D204341504954414C204C4554544552204F20),
  (0x1E90D, 0x41444C414D204341504954414C204C45545445522044484120),
  (0x1E90E, 0x41444C414D204341504954414C204C45545445522059484520),
  (0x1E90F, 0x41444C414D204341504954414C204C45545445522057415720),
  (0x1E910, 0x41444C414D204341504954414C204C4554544552204E554E20),
  (0x1E911, 0x41444C414D204341504954414C204C4554544552204B414620),
  (0x1E912, 0x41444C414D204341504954414C204C455454455220594120),
  (0x1E913, 0x41444C414D204341504954414C204C4554544552205520),
  (0x1E914, 0x41444C414D204341504954414C204C4554544552204A49494D20),
  (0x1E915, 0x41444C414D204341504954414C204C45545445522043484920),
  (0x1E916, 0x41444C414D204341504954414C204C455454455220484120),
  (0x1E917, 0x41444C414D204341504954414C204C4554544552205141414620),
  (0x1E918, 0x41444C414D204341504954414C204C455454455220474120),
  (0x1E919, 0x41444C414D204341504954414C204C4554544552204E594120),
  (0x1E91A, 0x41444C414D204341504954414C204C455454455220545520),
  (0x1E91B, 0x41444C414D204341504954414C204C4554544552204E484120),
  (0x1E91C, 0x41444C414D204341504954414C204C455454455220564120),
  (0x1E91D, 0x41444C414D204341504954414C204C4554544552204B484120),
  (0x1E91E, 0x41444C414D204341504954414C204C45545445522047424520),
  (0x1E91F, 0x41444C414D204341504954414C204C4554544552205A414C20),
  (0x1E920, 0x41444C414D204341504954414C204C4554544552204B504F20),
  (0x1E921, 0x41444C414D204341504954414C204C45545445522053484120),
  (0x1E922, 0x41444C414D20534D414C4C204C455454455220414C494620),
  (0x1E923, 0x41444C414D20534D414C4C204C4554544552204441414C4920),
  (0x1E924, 0x41444C414D20534D414C4C204C4554544552204C41414D20),
  (0x1E925, 0x41444C414D20534D414C4C204C4554544552204D49494D20),
  (0x1E926, 0x41444C414D20534D414C4C204C455454455220424120),
  (0x1E927, 0x41444C414D20534D414C4C204C45545445522053494E4E59494959484520),
  (0x1E928, 0x41444C414D20534D414C4C204C455454455220504520),
  (0x1E929, 0x41444C414D20534D414C4C204C45545445522042484520),
  (0x1E92A, 0x41444C414D20534D414C4C204C455454455220524120),
  (0x1E92B, 0x41444C414D20534D414C4C204C4554544552204520),
  (0x1E92C, 0x41444C414D20534D414C4C204C455454455220464120),
  (0x1E92D, 0x41444C414D20534D414C4C204C4554544552204920),
  (0x1E92E, 0x41444C414D20534D414C4C204C4554544552204F20)]
def names_445 : List (Nat × Nat) := [
  (0x1E92F, 0x41444C414D20534D414C4C204C45545445522044484120),
  (0x1E930, 0x41444C414D20534D414C4C204C45545445522059484520),
  (0x1E931, 0x41444C414D20534D414C4C204C45545445522057415720),
  (0x1E932, 0x41444C414D20534D414C4C204C4554544552204E554E20),
  (0x1E933, 0x41444C414D20534D414C4C204C4554544552204B414620),
  (0x1E934, 0x41444C414D20534D414C4C204C455454455220594120),
  (0x1E935, 0x41444C414D20534D414C4C204C4554544552205520),
  (0x1E936, 0x41444C414D20534D414C4C204C4554544552204A49494D20),
  (0x1E937, 0x41444C414D20534D414C4C204C45545445522043484920),
  (0x1E938, 0x41444C414D20534D414C4C204C455454455220484120),
  (0x1E939, 0x41444C414D20534D414C4C204C4554544552205141414620),
  (0x1E93A, 0x41444C414D20534D414C4C204C455454455220474120),
  (0x1E93B, 0x41444C414D20534D414C4C204C4554544552204E594120),
  (0x1E93C, 0x41444C414D20534D414C4C204C455454455220545520),
  (0x1E93D, 0x41444C414D20534D414C4C204C4554544552204E484120),
  (0x1E93E, 0x41444C414D20534D414C4C204C455454455220564120),
  (0x1E93F, 0x41444C414D20534D414C4C204C4554544552204B484120),
  (0x1E940, 0x41444C414D20534D414C4C204C45545445522047424520),
  (0x1E941, 0x41444C414D20534D414C4C204C4554544552205A414C20),
  (0x1E942, 0x41444C414D20534D414C4C204C4554544552204B504F20),
  (0x1E943, 0x41444C414D20534D414C4C204C45545445522053484120),
  (0x1E944, 0x41444C414D20414C4946204C454E475448454E455220),
  (0x1E945, 0x41444C414D20564F57454C204C454E475448454E455220),
  (0x1E946, 0x41444C414D2047454D494E4154494F4E204D41524B20),
  (0x1E947, 0x41444C414D2048414D5A4120),
  (0x1E948, 0x41444C414D20434F4E534F4E414E54204D4F44494649455220),
  (0x1E949, 0x41444C414D2047454D494E41544520434F4E534F4E414E54204D4F44494649455220),
  (0x1E94A, 0x41444C414D204E554B544120),
  (0x1E950, 0x41444C414D204449474954205A45524F20),
  (0x1E951, 0x41444C414D204449474954204F4E4520),
  (0x1E952, 0x41444C414D2044494749542054574F20),
  (0x1E953, 0x41444C414D20444947495420544852454520),
  (0x1E954, 0x41444C414D20444947495420464F555220),
  (0x1E955, 0x41444C414D204449474954204649564520),
  (0x1E956, 0x41444C414D2044494749542053495820),
  (0x1E957, 0x41444C414D20444947495420534556454E20),
  (0x1E958, 0x41444C414D20444947495420454947485420),
  (0x1E959, 0x41444C414D204449474954204E494E4520),
  (0x1E95E, 0x41444C414D20494E495449414C204558434C414D4154494F4E204D41524B20),
  (0x1E95F, 0x41444C414D20494E495449414C205155455354494F4E204D41524B20),
  (0x1EE00, 0x415241424943204D415448454D41544943414C20414C454620),
  (0x1EE01, 0x415241424943204D415448454D41544943414C2042454820),
  (0x1EE02, 0x415241424943204D415448454D41544943414C204A45454D20),
  (0x1EE03, 0x415241424943204D415448454D41544943414C2044414C20),
  (0x1EE05, 0x415241424943204D415448454D41544943414C2057415720),
  (0x1EE06, 0x415241424943204D415448454D41544943414C205A41494E20),
  (0x1EE07, 0x415241424943204D415448454D41544943414C2048414820),
  (0x1EE08, 0x415241424943204D415448454D41544943414C2054414820),
  (0x1EE09, 0x415241424943204D415448454D41544943414C2059454820),
  (0x1EE0A, 0x415241424943204D415448454D41544943414C204B414620),
  (0x1EE0B, 0x415241424943204D415448454D41544943414C204C414D20),
  (0x1EE0C, 0x415241424943204D415448454D41544943414C204D45454D20),
  (0x1EE0D, 0x415241424943204D415448454D41544943414C204E4F4F4E20),
  (0x1EE0E, 0x415241424943204D415448454D41544943414C205345454E20),
  (0x1EE0F, 0x415241424943204D415448454D41544943414C2041494E20),
  (0x1EE10, 0x415241424943204D415448454D41544943414C2046454820),
  (0x1EE11, 0x415241424943204D415448454D41544943414C2053414420),
  (0x1EE12, 0x415241424943204D415448454D41544943414C2051414620),
  (0x1EE13, 0x415241424943204D415448454D41544943414C2052454820),
  (0x1EE14, 0x415241424943204D415448454D41544943414C20534845454E20),
  (0x1EE15, 0x415241424943204D415448454D41544943414C2054454820),
  (0x1EE16, 0x415241424943204D415448454D41544943414C205448454820),
  (0x1EE17, 0x415241424943204D415448454D41544943414C204B48414820),
  (0x1EE18, 0x415241424943204D415448454D41544943414C205448414C20)]
def names_446 : List (Nat × Nat) := [
  (0x1EE19, 0x415241424943204D415448454D41544943414C2044414420),
  (0x1EE1A, 0x415241424943204D415448454D41544943414C205A414820),
  (0x1EE1B, 0x415241424943204D415448454D41544943414C20474841494E20),
  (0x1EE1C, 0x415241424943204D415448454D41544943414C20444F544C4553532042454820),
  (0x1EE1D, 0x415241424943204D415448454D41544943414C20444F544C455353204E4F4F4E20),
  (0x1EE1E, 0x415241424943204D415448454D41544943414C20444F544C4553532046454820),
  (0x1EE1F, 0x415241424943204D415448454D41544943414C20444F544C4553532051414620),
  (0x1EE21, 0x415241424943204D415448454D41544943414C20494E495449414C2042454820),
  (0x1EE22, 0x415241424943204D415448454D41544943414C20494E495449414C204A45454D20),
  (0x1EE24, 0x415241424943204D415448454D41544943414C20494E495449414C2048454820),
  (0x1EE27, 0x415241424943204D415448454D41544943414C20494E495449414C2048414820),
  (0x1EE29, 0x415241424943204D415448454D41544943414C20494E495449414C2059454820),
  (0x1EE2A, 0x415241424943204D415448454D41544943414C20494E495449414C204B414620),
  (0x1EE2B, 0x415241424943204D415448454D41544943414C20494E495449414C204C414D20),
  (0x1EE2C, 0x415241424943204D415448454D41544943414C20494E495449414C204D45454D20),
  (0x1EE2D, 0x415241424943204D415448454D41544943414C20494E495449414C204E4F4F4E20),
  (0x1EE2E, 0x415241424943204D415448454D41544943414C20494E495449414C205345454E20),
  (0x1EE2F, 0x415241424943204D415448454D41544943414C20494E495449414C2041494E20),
  (0x1EE30, 0x415241424943204D415448454D41544943414C20494E495449414C2046454820),
  (0x1EE31, 0x415241424943204D415448454D41544943414C20494E495449414C2053414420),
  (0x1EE32, 0x415241424943204D415448454D41544943414C20494E495449414C2051414620),
  (0x1EE34, 0x415241424943204D415448454D41544943414C20494E495449414C20534845454E20),
  (0x1EE35, 0x415241424943204D415448454D41544943414C20494E495449414C2054454820),
  (0x1EE36, 0x415241424943204D415448454D41544943414C20494E495449414C205448454820),
  (0x1EE37, 0x415241424943204D415448454D41544943414C20494E495449414C204B48414820),
  (0x1EE39, 0x415241424943204D415448454D41544943414C20494E495449414C2044414420),
  (0x1EE3B, 0x415241424943204D415448454D41544943414C20494E495449414C20474841494E20),
  (0x1EE42, 0x415241424943204D415448454D41544943414C205441494C4544204A45454D20),
  (0x1EE47, 0x415241424943204D415448454D41544943414C205441494C45442048414820),
  (0x1EE49, 0x415241424943204D415448454D41544943414C205441494C45442059454820),
  (0x1EE4B, 0x415241424943204D415448454D41544943414C205441494C4544204C414D20),
  (0x1EE4D, 0x415241424943204D415448454D41544943414C205441494C4544204E4F4F4E20),
  (0x1EE4E, 0x415241424943204D415448454D41544943414C205441494C4544205345454E20),
  (0x1EE4F, 0x415241424943204D415448454D41544943414C205441494C45442041494E20),
  (0x1EE51, 0x415241424943204D415448454D41544943414C205441494C45442053414420),
  (0x1EE52, 0x415241424943204D415448454D41544943414C205441494C45442051414620),
  (0x1EE54, 0x415241424943204D415448454D41544943414C205441494C454420534845454E20),
  (0x1EE57, 0x415241424943204D415448454D41544943414C205441494C4544204B48414820),
  (0x1EE59, 0x415241424943204D415448454D41544943414C205441494C45442044414420),
  (0x1EE5B, 0x415241424943204D415448454D41544943414C205441494C454420474841494E20),
  (0x1EE5D, 0x415241424943204D415448454D41544943414C205441494C454420444F544C455353204E4F4F4E20),
  (0x1EE5F, 0x415241424943204D415448454D41544943414C205441494C454420444F544C4553532051414620),
  (0x1EE61, 0x415241424943204D415448454D41544943414C205354524554434845442042454820),
  (0x1EE62, 0x415241424943204D415448454D41544943414C20535452455443484544204A45454D20),
  (0x1EE64, 0x415241424943204D415448454D41544943414C205354524554434845442048454820),
  (0x1EE67, 0x415241424943204D415448454D41544943414C205354524554434845442048414820),
  (0x1EE68, 0x415241424943204D415448454D41544943414C205354524554434845442054414820),
  (0x1EE69, 0x415241424943204D415448454D41544943414C205354524554434845442059454820),
  (0x1EE6A, 0x415241424943204D415448454D41544943414C20535452455443484544204B414620),
  (0x1EE6C, 0x415241424943204D415448454D41544943414C20535452455443484544204D45454D20),
  (0x1EE6D, 0x415241424943204D415448454D41544943414C20535452455443484544204E4F4F4E20),
  (0x1EE6E, 0x415241424943204D415448454D41544943414C20535452455443484544205345454E20),
  (0x1EE6F, 0x415241424943204D415448454D41544943414C205354524554434845442041494E20),
  (0x1EE70, 0x415241424943204D415448454D41544943414C205354524554434845442046454820),
  (0x1EE71, 0x415241424943204D415448454D41544943414C205354524554434845442053414420),
  (0x1EE72, 0x415241424943204D415448454D41544943414C205354524554434845442051414620),
  (0x1EE74, 0x415241424943204D415448454D41544943414C2053545245544348454420534845454E20),
  (0x1EE75, 0x415241424943204D415448454D41544943414C205354524554434845442054454820),
  (0x1EE76, 0x415241424943204D415448454D41544943414C20535452455443484544205448454820),
  (0x1EE77, 0x415241424943204D415448454D41544943414C20535452455443484544204B48414820),
  (0x1EE79, 0x415241424943204D415448454D41544943414C205354524554434845442044414420),
  (0x1EE7A, 0x415241424943204D415448454D41544943414C20535452455443484544205A414820),
  (0x1EE7B, 0x415241424943204D415448454D41544943414C2053545245544348454420474841494E20),
  (0x1EE7C, 0x415241424943204D415448454D41544943414C2053545245544348454420444F544C4553532042454820)]
def names_447 : List (Nat × Nat) := [
  (0x1EE7E, 0x415241424943204D415448454D41544943414C2053545245544348454420444F544C4553532046454820),
  (0x1EE80, 0x415241424943204D415448454D41544943414C204C4F4F50454420414C454620),
  (0x1EE81, 0x415241424943204D415448454D41544943414C204C4F4F5045442042454820),
  (0x1EE82, 0x415241424943204D415448454D41544943414C204C4F4F504544204A45454D20),
  (0x1EE83, 0x415241424943204D415448454D41544943414C204C4F4F5045442044414C20),
  (0x1EE84, 0x415241424943204D415448454D41544943414C204C4F4F5045442048454820),
  (0x1EE85, 0x415241424943204D415448454D41544943414C204C4F4F5045442057415720),
  (0x1EE86, 0x415241424943204D415448454D41544943414C204C4F4F504544205A41494E20),
  (0x1EE87, 0x415241424943204D415448454D41544943414C204C4F4F5045442048414820),
  (0x1EE88, 0x415241424943204D415448454D41544943414C204C4F4F5045442054414820),
  (0x1EE89, 0x415241424943204D415448454D41544943414C204C4F4F5045442059454820),
  (0x1EE8B, 0x415241424943204D415448454D41544943414C204C4F4F504544204C414D20),
  (0x1EE8C, 0x415241424943204D415448454D41544943414C204C4F4F504544204D45454D20),
  (0x1EE8D, 0x415241424943204D415448454D41544943414C204C4F4F504544204E4F4F4E20),
  (0x1EE8E, 0x415241424943204D415448454D41544943414C204C4F4F504544205345454E20),
  (0x1EE8F, 0x415241424943204D415448454D41544943414C204C4F4F5045442041494E20),
  (0x1EE90, 0x415241424943204D415448454D41544943414C204C4F4F5045442046454820),
  (0x1EE91, 0x415241424943204D415448454D41544943414C204C4F4F5045442053414420),
  (0x1EE92, 0x415241424943204D415448454D41544943414C204C4F4F5045442051414620),
  (0x1EE93, 0x415241424943204D415448454D41544943414C204C4F4F5045442052454820),
  (0x1EE94, 0x415241424943204D415448454D41544943414C204C4F4F50454420534845454E20),
  (0x1EE95, 0x415241424943204D415448454D41544943414C204C4F4F5045442054454820),
  (0x1EE96, 0x415241424943204D415448454D41544943414C204C4F4F504544205448454820),
  (0x1EE97, 0x415241424943204D415448454D41544943414C204C4F4F504544204B48414820),
  (0x1EE98, 0x415241424943204D415448454D41544943414C204C4F4F504544205448414C20),
  (0x1EE99, 0x415241424943204D415448454D41544943414C204C4F4F5045442044414420),
  (0x1EE9A, 0x415241424943204D415448454D41544943414C204C4F4F504544205A414820),
  (0x1EE9B, 0x415241424943204D415448454D41544943414C204C4F4F50454420474841494E20),
  (0x1EEA1, 0x415241424943204D415448454D41544943414C20444F55424C452D53545255434B2042454820),
  (0x1EEA2, 0x415241424943204D415448454D41544943414C20444F55424C452D53545255434B204A45454D20),
  (0x1EEA3, 0x415241424943204D415448454D41544943414C20444F55424C452D53545255434B2044414C20),
  (0x1EEA5, 0x415241424943204D415448454D41544943414C20444F55424C452D53545255434B2057415720),
  (0x1EEA6, 0x415241424943204D415448454D41544943414C20444F55424C452D53545255434B205A41494E20),
  (0x1EEA7, 0x415241424943204D415448454D41544943414C20444F55424C452D53545255434B2048414820),
  (0x1EEA8, 0x415241424943204D415448454D41544943414C20444F55424C452D53545255434B2054414820),
  (0x1EEA9, 0x415241424943204D415448454D41544943414C20444F55424C452D53545255434B2059454820),
  (0x1EEAB, 0x415241424943204D415448454D41544943414C20444F55424C452D53545255434B204C414D20),
  (0x1EEAC, 0x415241424943204D415448454D41544943414C20444F55424C452D53545255434B204D45454D20),
  (0x1EEAD, 0x415241424943204D415448454D41544943414C20444F55424C452D53545255434B204E4F4F4E20),
  (0x1EEAE, 0x415241424943204D415448454D41544943414C20444F55424C452D53545255434B205345454E20),
  (0x1EEAF, 0x415241424943204D415448454D41544943414C20444F55424C452D53545255434B2041494E20),
  (0x1EEB0, 0x415241424943204D415448454D41544943414C20444F55424C452D53545255434B2046454820),
  (0x1EEB1, 0x415241424943204D415448454D41544943414C20444F55424C452D53545255434B2053414420),
  (0x1EEB2, 0x415241424943204D415448454D41544943414C20444F55424C452D53545255434B2051414620),
  (0x1EEB3, 0x415241424943204D415448454D41544943414C20444F55424C452D53545255434B2052454820),
  (0x1EEB4, 0x415241424943204D415448454D41544943414C20444F55424C452D53545255434B20534845454E20),
  (0x1EEB5, 0x415241424943204D415448454D41544943414C20444F55424C452D53545255434B2054454820),
  (0x1EEB6, 0x415241424943204D415448454D41544943414C20444F55424C452D53545255434B205448454820),
  (0x1EEB7, 0x415241424943204D415448454D41544943414C20444F55424C452D53545255434B204B48414820),
  (0x1EEB8, 0x415241424943204D415448454D41544943414C20444F55424C452D53545255434B205448414C20),
  (0x1EEB9, 0x415241424943204D415448454D41544943414C20444F55424C452D53545255434B2044414420),
  (0x1EEBA, 0x415241424943204D415448454D41544943414C20444F55424C452D53545255434B205A414820),
  (0x1EEBB, 0x415241424943204D415448454D41544943414C20444F55424C452D53545255434B20474841494E20),
  (0x1EEF0, 0x415241424943204D415448454D41544943414C204F50455241544F52204D45454D2057495448204841482057495448205441545745454C20),
  (0x1EEF1, 0x415241424943204D415448454D41544943414C204F50455241544F522048414820574954482044414C20),
  (0x1F000, 0x4D41484A4F4E472054494C4520454153542057494E4420),
  (0x1F001, 0x4D41484A4F4E472054494C4520534F5554482057494E4420),
  (0x1F002, 0x4D41484A4F4E472054494C4520574553542057494E4420),
  (0x1F003, 0x4D41484A4F4E472054494C45204E4F5254482057494E4420),
  (0x1F004, 0x4D41484A4F4E472054494C452052454420445241474F4E20),
  (0x1F005, 0x4D41484A4F4E472054494C4520475245454E20445241474F4E20),
  (0x1F006, 0x4D41484A4F4E472054494C4520574849544520445241474F4E20),
  (0x1F007, 0x4D41484A4F4E472054494C45204F4E45204F46204348415241435445525320),
  (0x1F008, 0x4D41484A4F4E472054494C452054574F204F46204348415241435445525320)]
def names_448 : List (Nat × Nat) := [
  (0x1F009, 0x4D41484A4F4E472054494C45205448524545204F46204348415241435445525320),
  (0x1F00A, 0x4D41484A4F4E472054494C4520464F5552204F46204348415241435445525320),
  (0x1F00B, 0x4D41484A4F4E472054494C452046495645204F46204348415241435445525320),
  (0x1F00C, 0x4D41484A4F4E472054494C4520534958204F46204348415241435445525320),
  (0x1F00D, 0x4D41484A4F4E472054494C4520534556454E204F46204348415241435445525320),
  (0x1F00E, 0x4D41484A4F4E472054494C45204549474854204F46204348415241435445525320),
  (0x1F00F, 0x4D41484A4F4E472054494C45204E494E45204F46204348415241435445525320),
  (0x1F010, 0x4D41484A4F4E472054494C45204F4E45204F462042414D424F4F5320),
  (0x1F011, 0x4D41484A4F4E472054494C452054574F204F462042414D424F4F5320),
  (0x1F012, 0x4D41484A4F4E472054494C45205448524545204F462042414D424F4F5320),
  (0x1F013, 0x4D41484A4F4E472054494C4520464F5552204F462042414D424F4F5320),
  (0x1F014, 0x4D41484A4F4E472054494C452046495645204F462042414D424F4F5320),
  (0x1F015, 0x4D41484A4F4E472054494C4520534958204F462042414D424F4F5320),
  (0x1F016, 0x4D41484A4F4E472054494C4520534556454E204F462042414D424F4F5320),
  (0x1F017, 0x4D41484A4F4E472054494C45204549474854204F462042414D424F4F5320),
  (0x1F018, 0x4D41484A4F4E472054494C45204E494E45204F462042414D424F4F5320),
  (0x1F019, 0x4D41484A4F4E472054494C45204F4E45204F4620434952434C455320),
  (0x1F01A, 0x4D41484A4F4E472054494C452054574F204F4620434952434C455320),
  (0x1F01B, 0x4D41484A4F4E472054494C45205448524545204F4620434952434C455320),
  (0x1F01C, 0x4D41484A4F4E472054494C4520464F5552204F4620434952434C455320),
  (0x1F01D, 0x4D41484A4F4E472054494C452046495645204F4620434952434C455320),
  (0x1F01E, 0x4D41484A4F4E472054494C4520534958204F4620434952434C455320),
  (0x1F01F, 0x4D41484A4F4E472054494C4520534556454E204F4620434952434C455320),
  (0x1F020, 0x4D41484A4F4E472054494C45204549474854204F4620434952434C455320),
  (0x1F021, 0x4D41484A4F4E472054494C45204E494E45204F4620434952434C455320),
  (0x1F022, 0x4D41484A4F4E472054494C4520504C554D20),
  (0x1F023, 0x4D41484A4F4E472054494C45204F524348494420),
  (0x1F024, 0x4D41484A4F4E472054494C452042414D424F4F20),
  (0x1F025, 0x4D41484A4F4E472054494C45204348525953414E5448454D554D20),
  (0x1F026, 0x4D41484A4F4E472054494C4520535052494E4720),
  (0x1F027, 0x4D41484A4F4E472054494C452053554D4D455220),
  (0x1F028, 0x4D41484A4F4E472054494C4520415554554D4E20),
  (0x1F029, 0x4D41484A4F4E472054494C452057494E54455220),
  (0x1F02A, 0x4D41484A4F4E472054494C45204A4F4B455220),
  (0x1F02B, 0x4D41484A4F4E472054494C45204241434B20),
  (0x1F030, 0x444F4D494E4F2054494C4520484F52495A4F4E54414C204241434B20),
  (0x1F031, 0x444F4D494E4F2054494C4520484F52495A4F4E54414C2D30302D303020),
  (0x1F032, 0x444F4D494E4F2054494C4520484F52495A4F4E54414C2D30302D303120),
  (0x1F033, 0x444F4D494E4F2054494C4520484F52495A4F4E54414C2D30302D303220),
  (0x1F034, 0x444F4D494E4F2054494C4520484F52495A4F4E54414C2D30302D303320),
  (0x1F035, 0x444F4D494E4F2054494C4520484F52495A4F4E54414C2D30302D303420),
  (0x1F036, 0x444F4D494E4F2054494C4520484F52495A4F4E54414C2D30302D303520),
  (0x1F037, 0x444F4D494E4F2054494C4520484F52495A4F4E54414C2D30302D303620),
  (0x1F038, 0x444F4D494E4F2054494C4520484F52495A4F4E54414C2D30312D303020),
  (0x1F039, 0x444F4D494E4F2054494C4520484F52495A4F4E54414C2D30312D303120),
  (0x1F03A, 0x444F4D494E4F2054494C4520484F52495A4F4E54414C2D30312D303220),
  (0x1F03B, 0x444F4D494E4F2054494C4520484F52495A4F4E54414C2D30312D303320),
  (0x1F03C, 0x444F4D494E4F2054494C4520484F52495A4F4E54414C2D30312D303420),
  (0x1F03D, 0x444F4D494E4F2054494C4520484F52495A4F4E54414C2D30312D303520),
  (0x1F03E, 0x444F4D494E4F2054494C4520484F52495A4F4E54414C2D30312D303620),
  (0x1F03F, 0x444F4D494E4F2054494C4520484F52495A4F4E54414C2D30322D303020),
  (0x1F040, 0x444F4D494E4F2054494C4520484F52495A4F4E54414C2D30322D303120),
  (0x1F041, 0x444F4D494E4F2054494C4520484F52495A4F4E54414C2D30322D303220),
  (0x1F042, 0x444F4D494E4F2054494C4520484F52495A4F4E54414C2D30322D303320),
  (0x1F043, 0x444F4D494E4F2054494C4520484F52495A4F4E54414C2D30322D303420),
  (0x1F044, 0x444F4D494E4F2054494C4520484F52495A4F4E54414C2D30322D303520),
  (0x1F045, 0x444F4D494E4F2054494C4520484F52495A4F4E54414C2D30322D303620),
  (0x1F046, 0x444F4D494E4F2054494C4520484F52495A4F4E54414C2D30332D303020),
  (0x1F047, 0x444F4D494E4F2054494C4520484F52495A4F4E54414C2D30332D303120),
  (0x1F048, 0x444F4D494E4F2054494C4520484F52495A4F4E54414C2D30332D303220),
  (0x1F049, 0x444F4D494E4F2054494C4520484F52495A4F4E54414C2D30332D303320),
  (0x1F04A, 0x444F4D494E4F2054494C4520484F52495A4F4E54414C2D30332D303420),
  (0x1F04B, 0x444F4D494E4F2054494C4520484F52495A4F4E54414C2D30332D303520),
  (0x1F04C, 0x444F4D494E4F2054494C4520484F52495A4F4E54414C2D30332D303620)]
def names_449 : List (Nat × Nat) := [
  (0x1F04D, 0x444F4D494E4F2054494C4520484F52495A4F4E54414C2D30342D303020),
  (0x1F04E, 0x444F4D494E4F2054494C4520484F52495A4F4E54414C2D30342D303120),
  (0x1F04F, 0x444F4D494E4F2054494C4520484F52495A4F4E54414C2D30342D303220),
  (0x1F050, 0x444F4D494E4F2054494C4520484F52495A4F4E54414C2D30342D303320),
  (0x1F051, 0x444F4D494E4F2054494C4520484F52495A4F4E54414C2D30342D303420),
  (0x1F052, 0x444F4D494E4F2054494C4520484F52495A4F4E54414C2D30342D303520),
  (0x1F053, 0x444F4D494E4F2054494C4520484F52495A4F4E54414C2D30342D303620),
  (0x1F054, 0x444F4D494E4F2054494C4520484F52495A4F4E54414C2D30352D303020),
  (0x1F055, 0x444F4D494E4F2054494C4520484F52495A4F4E54414C2D30352D303120),
  (0x1F056, 0x444F4D494E4F2054494C4520484F52495A4F4E54414C2D30352D303220),
  (0x1F057, 0x444F4D494E4F2054494C4520484F52495A4F4E54414C2D30352D303320),
  (0x1F058, 0x444F4D494E4F2054494C4520484F52495A4F4E54414C2D30352D303420),
  (0x1F059, 0x444F4D494E4F2054494C4520484F52495A4F4E54414C2D30352D303520),
  (0x1F05A, 0x444F4D494E4F2054494C4520484F52495A4F4E54414C2D30352D303620),
  (0x1F05B, 0x444F4D494E4F2054494C4520484F52495A4F4E54414C2D30362D303020),
  (0x1F05C, 0x444F4D494E4F2054494C4520484F52495A4F4E54414C2D30362D303120),
  (0x1F05D, 0x444F4D494E4F2054494C4520484F52495A4F4E54414C2D30362D303220),
  (0x1F05E, 0x444F4D494E4F2054494C4520484F52495A4F4E54414C2D30362D303320),
  (0x1F05F, 0x444F4D494E4F2054494C4520484F52495A4F4E54414C2D30362D303420),
  (0x1F060, 0x444F4D494E4F2054494C4520484F52495A4F4E54414C2D30362D303520),
  (0x1F061, 0x444F4D494E4F2054494C4520484F52495A4F4E54414C2D30362D303620),
  (0x1F062, 0x444F4D494E4F2054494C4520564552544943414C204241434B20),
  (0x1F063, 0x444F4D494E4F2054494C4520564552544943414C2D30302D303020),
  (0x1F064, 0x444F4D494E4F2054494C4520564552544943414C2D30302D303120),
  (0x1F065, 0x444F4D494E4F2054494C4520564552544943414C2D30302D303220),
  (0x1F066, 0x444F4D494E4F2054494C4520564552544943414C2D30302D303320),
  (0x1F067, 0x444F4D494E4F2054494C4520564552544943414C2D30302D303420),
  (0x1F068, 0x444F4D494E4F2054494C4520564552544943414C2D30302D303520),
  (0x1F069, 0x444F4D494E4F2054494C4520564552544943414C2D30302D303620),
  (0x1F06A, 0x444F4D494E4F2054494C4520564552544943414C2D30312D303020),
  (0x1F06B, 0x444F4D494E4F2054494C4520564552544943414C2D30312D303120),
  (0x1F06C, 0x444F4D494E4F2054494C4520564552544943414C2D30312D303220),
  (0x1F06D, 0x444F4D494E4F2054494C4520564552544943414C2D30312D303320),
  (0x1F06E, 0x444F4D494E4F2054494C4520564552544943414C2D30312D303420),
  (0x1F06F, 0x444F4D494E4F2054494C4520564552544943414C2D30312D303520),
  (0x1F070, 0x444F4D494E4F2054494C4520564552544943414C2D30312D303620),
  (0x1F071, 0x444F4D494E4F2054494C4520564552544943414C2D30322D303020),
  (0x1F072, 0x444F4D494E4F2054494C4520564552544943414C2D30322D303120),
  (0x1F073, 0x444F4D494E4F2054494C4520564552544943414C2D30322D303220),
  (0x1F074, 0x444F4D494E4F2054494C4520564552544943414C2D30322D303320),
  (0x1F075, 0x444F4D494E4F2054494C4520564552544943414C2D30322D303420),
  (0x1F076, 0x444F4D494E4F2054494C4520564552544943414C2D30322D303520),
  (0x1F077, 0x444F4D494E4F2054494C4520564552544943414C2D30322D303620),
  (0x1F078, 0x444F4D494E4F2054494C4520564552544943414C2D30332D303020),
  (0x1F079, 0x444F4D494E4F2054494C4520564552544943414C2D30332D303120),
  (0x1F07A, 0x444F4D494E4F2054494C4520564552544943414C2D30332D303220),
  (0x1F07B, 0x444F4D494E4F2054494C4520564552544943414C2D30332D303320),
  (0x1F07C, 0x444F4D494E4F2054494C4520564552544943414C2D30332D303420),
  (0x1F07D, 0x444F4D494E4F2054494C4520564552544943414C2D30332D303520),
  (0x1F07E, 0x444F4D494E4F2054494C4520564552544943414C2D30332D303620),
  (0x1F07F, 0x444F4D494E4F2054494C4520564552544943414C2D30342D303020),
  (0x1F080, 0x444F4D494E4F2054494C4520564552544943414C2D30342D303120),
  (0x1F081, 0x444F4D494E4F2054494C4520564552544943414C2D30342D303220),
  (0x1F082, 0x444F4D494E4F2054494C4520564552544943414C2D30342D303320),
  (0x1F083, 0x444F4D494E4F2054494C4520564552544943414C2D30342D303420),
  (0x1F084, 0x444F4D494E4F2054494C4520564552544943414C2D30342D303520),
  (0x1F085, 0x444F4D494E4F2054494C4520564552544943414C2D30342D303620),
  (0x1F086, 0x444F4D494E4F2054494C4520564552544943414C2D30352D303020),
  (0x1F087, 0x444F4D494E4F2054494C4520564552544943414C2D30352D303120),
  (0x1F088, 0x444F4D494E4F2054494C4520564552544943414C2D30352D303220),
  (0x1F089, 0x444F4D494E4F2054494C4520564552544943414C2D30352D303320),
  (0x1F08A, 0x444F4D494E4F2054494C4520564552544943414C2D30352D303420),
  (0x1F08B, 0x444F4D494E4F2054494C4520564552544943414C2D30352D303520),
  (0x1F08C, 0x444F4D494E4F2054494C4520564552544943414C2D30352D303620)]
def names_450 : List (Nat × Nat) := [
  (0x1F08D, 0x444F4D494E4F2054494C4520564552544943414C2D30362D303020),
  (0x1F08E, 0x444F4D494E4F2054494C4520564552544943414C2D30362D303120),
  (0x1F08F, 0x444F4D494E4F2054494C4520564552544943414C2D30362D303220),
  (0x1F090, 0x444F4D494E4F2054494C4520564552544943414C2D30362D303320),
  (0x1F091, 0x444F4D494E4F2054494C4520564552544943414C2D30362D303420),
  (0x1F092, 0x444F4D494E4F2054494C4520564552544943414C2D30362D303520),
  (0x1F093, 0x444F4D494E4F2054494C4520564552544943414C2D30362D303620),
  (0x1F0A0, 0x504C4159494E472043415244204241434B20),
  (0x1F0A1, 0x504C4159494E47204341524420414345204F462053504144455320),
  (0x1F0A2, 0x504C4159494E4720434152442054574F204F462053504144455320),
  (0x1F0A3, 0x504C4159494E472043415244205448524545204F462053504144455320),
  (0x1F0A4, 0x504C4159494E47204341524420464F5552204F462053504144455320),
  (0x1F0A5, 0x504C4159494E4720434152442046495645204F462053504144455320),
  (0x1F0A6, 0x504C4159494E47204341524420534958204F462053504144455320),
  (0x1F0A7, 0x504C4159494E47204341524420534556454E204F462053504144455320),
  (0x1F0A8, 0x504C4159494E472043415244204549474854204F462053504144455320),
  (0x1F0A9, 0x504C4159494E472043415244204E494E45204F462053504144455320),
  (0x1F0AA, 0x504C4159494E4720434152442054454E204F462053504144455320),
  (0x1F0AB, 0x504C4159494E472043415244204A41434B204F462053504144455320),
  (0x1F0AC, 0x504C4159494E472043415244204B4E49474854204F462053504144455320),
  (0x1F0AD, 0x504C4159494E47204341524420515545454E204F462053504144455320),
  (0x1F0AE, 0x504C4159494E472043415244204B494E47204F462053504144455320),
  (0x1F0B1, 0x504C4159494E47204341524420414345204F462048454152545320),
  (0x1F0B2, 0x504C4159494E4720434152442054574F204F462048454152545320),
  (0x1F0B3, 0x504C4159494E472043415244205448524545204F462048454152545320),
  (0x1F0B4, 0x504C4159494E47204341524420464F5552204F462048454152545320),
  (0x1F0B5, 0x504C4159494E4720434152442046495645204F462048454152545320),
  (0x1F0B6, 0x504C4159494E47204341524420534958204F462048454152545320),
  (0x1F0B7, 0x504C4159494E47204341524420534556454E204F462048454152545320),
  (0x1F0B8, 0x504C4159494E472043415244204549474854204F462048454152545320),
  (0x1F0B9, 0x504C4159494E472043415244204E494E45204F462048454152545320),
  (0x1F0BA, 0x504C4159494E4720434152442054454E204F462048454152545320),
  (0x1F0BB, 0x504C4159494E472043415244204A41434B204F462048454152545320),
  (0x1F0BC, 0x504C4159494E472043415244204B4E49474854204F462048454152545320),
  (0x1F0BD, 0x504C4159494E47204341524420515545454E204F462048454152545320),
  (0x1F0BE, 0x504C4159494E472043415244204B494E47204F462048454152545320),
  (0x1F0BF, 0x504C4159494E47204341524420524544204A4F4B455220),
  (0x1F0C1, 0x504C4159494E47204341524420414345204F46204449414D4F4E445320),
  (0x1F0C2, 0x504C4159494E4720434152442054574F204F46204449414D4F4E445320),
  (0x1F0C3, 0x504C4159494E472043415244205448524545204F46204449414D4F4E445320),
  (0x1F0C4, 0x504C4159494E47204341524420464F5552204F46204449414D4F4E445320),
  (0x1F0C5, 0x504C4159494E4720434152442046495645204F46204449414D4F4E445320),
  (0x1F0C6, 0x504C4159494E47204341524420534958204F46204449414D4F4E445320),
  (0x1F0C7, 0x504C4159494E47204341524420534556454E204F46204449414D4F4E445320),
  (0x1F0C8, 0x504C4159494E472043415244204549474854204F46204449414D4F4E445320),
  (0x1F0C9, 0x504C4159494E472043415244204E494E45204F46204449414D4F4E445320),
  (0x1F0CA, 0x504C4159494E4720434152442054454E204F46204449414D4F4E445320),
  (0x1F0CB, 0x504C4159494E472043415244204A41434B204F46204449414D4F4E445320),
  (0x1F0CC, 0x504C4159494E472043415244204B4E49474854204F46204449414D4F4E445320),
  (0x1F0CD, 0x504C4159494E47204341524420515545454E204F46204449414D4F4E445320),
  (0x1F0CE, 0x504C4159494E472043415244204B494E47204F46204449414D4F4E445320),
  (0x1F0CF, 0x504C4159494E47204341524420424C41434B204A4F4B455220),
  (0x1F0D1, 0x504C4159494E47204341524420414345204F4620434C55425320),
  (0x1F0D2, 0x504C4159494E4720434152442054574F204F4620434C55425320),
  (0x1F0D3, 0x504C4159494E472043415244205448524545204F4620434C55425320),
  (0x1F0D4, 0x504C4159494E47204341524420464F5552204F4620434C55425320),
  (0x1F0D5, 0x504C4159494E4720434152442046495645204F4620434C55425320),
  (0x1F0D6, 0x504C4159494E47204341524420534958204F4620434C55425320),
  (0x1F0D7, 0x504C4159494E47204341524420534556454E204F4620434C55425320),
  (0x1F0D8, 0x504C4159494E472043415244204549474854204F4620434C55425320),
  (0x1F0D9, 0x504C4159494E472043415244204E494E45204F4620434C55425320),
  (0x1F0DA, 0x504C4159494E4720434152442054454E204F4620434C55425320),
  (0x1F0DB, 0x504C4159494E472043415244204A41434B204F4620434C55425320),
  (0x1F0DC, 0x504C4159494E472043415244204B4E49474854204F4620434C55425320)]
def names_451 : List (Nat × Nat) := [
  (0x1F0DD, 0x504C4159494E47204341524420515545454E204F4620434C55425320),
  (0x1F0DE, 0x504C4159494E472043415244204B494E47204F4620434C55425320),
  (0x1F0DF, 0x504C4159494E472043415244205748495445204A4F4B455220),
  (0x1F0E0, 0x504C4159494E47204341524420464F4F4C20),
  (0x1F0E1, 0x504C4159494E472043415244205452554D502D3120),
  (0x1F0E2, 0x504C4159494E472043415244205452554D502D3220),
  (0x1F0E3, 0x504C4159494E472043415244205452554D502D3320),
  (0x1F0E4, 0x504C4159494E472043415244205452554D502D3420),
  (0x1F0E5, 0x504C4159494E472043415244205452554D502D3520),
  (0x1F0E6, 0x504C4159494E472043415244205452554D502D3620),
  (0x1F0E7, 0x504C4159494E472043415244205452554D502D3720),
  (0x1F0E8, 0x504C4159494E472043415244205452554D502D3820),
  (0x1F0E9, 0x504C4159494E472043415244205452554D502D3920),
  (0x1F0EA, 0x504C4159494E472043415244205452554D502D313020),
  (0x1F0EB, 0x504C4159494E472043415244205452554D502D313120),
  (0x1F0EC, 0x504C4159494E472043415244205452554D502D313220),
  (0x1F0ED, 0x504C4159494E472043415244205452554D502D313320),
  (0x1F0EE, 0x504C4159494E472043415244205452554D502D313420),
  (0x1F0EF, 0x504C4159494E472043415244205452554D502D313520),
  (0x1F0F0, 0x504C4159494E472043415244205452554D502D313620),
  (0x1F0F1, 0x504C4159494E472043415244205452554D502D313720),
  (0x1F0F2, 0x504C4159494E472043415244205452554D502D313820),
  (0x1F0F3, 0x504C4159494E472043415244205452554D502D313920),
  (0x1F0F4, 0x504C4159494E472043415244205452554D502D323020),
  (0x1F0F5, 0x504C4159494E472043415244205452554D502D323120),
  (0x1F100, 0x4449474954205A45524F2046554C4C2053544F5020),
  (0x1F101, 0x4449474954205A45524F20434F4D4D4120),
  (0x1F102, 0x4449474954204F4E4520434F4D4D4120),
  (0x1F103, 0x44494749542054574F20434F4D4D4120),
  (0x1F104, 0x444947495420544852454520434F4D4D4120),
  (0x1F105, 0x444947495420464F555220434F4D4D4120),
  (0x1F106, 0x4449474954204649564520434F4D4D4120),
  (0x1F107, 0x44494749542053495820434F4D4D4120),
  (0x1F108, 0x444947495420534556454E20434F4D4D4120),
  (0x1F109, 0x444947495420454947485420434F4D4D4120),
  (0x1F10A, 0x4449474954204E494E4520434F4D4D4120),
  (0x1F10B, 0x44494E4742415420434952434C45442053414E532D5345524946204449474954205A45524F20),
  (0x1F10C, 0x44494E47424154204E4547415449564520434952434C45442053414E532D5345524946204449474954205A45524F20),
  (0x1F110, 0x504152454E54484553495A4544204C4154494E204341504954414C204C4554544552204120),
  (0x1F111, 0x504152454E54484553495A4544204C4154494E204341504954414C204C4554544552204220),
  (0x1F112, 0x504152454E54484553495A4544204C4154494E204341504954414C204C4554544552204320),
  (0x1F113, 0x504152454E54484553495A4544204C4154494E204341504954414C204C4554544552204420),
  (0x1F114, 0x504152454E54484553495A4544204C4154494E204341504954414C204C4554544552204520),
  (0x1F115, 0x504152454E54484553495A4544204C4154494E204341504954414C204C4554544552204620),
  (0x1F116, 0x504152454E54484553495A4544204C4154494E204341504954414C204C4554544552204720),
  (0x1F117, 0x504152454E54484553495A4544204C4154494E204341504954414C204C4554544552204820),
  (0x1F118, 0x504152454E54484553495A4544204C4154494E204341504954414C204C4554544552204920),
  (0x1F119, 0x504152454E54484553495A4544204C4154494E204341504954414C204C4554544552204A20),
  (0x1F11A, 0x504152454E54484553495A4544204C4154494E204341504954414C204C4554544552204B20),
  (0x1F11B, 0x504152454E54484553495A4544204C4154494E204341504954414C204C4554544552204C20),
  (0x1F11C, 0x504152454E54484553495A4544204C4154494E204341504954414C204C4554544552204D20),
  (0x1F11D, 0x504152454E54484553495A4544204C4154494E204341504954414C204C4554544552204E20),
  (0x1F11E, 0x504152454E54484553495A4544204C4154494E204341504954414C204C4554544552204F20),
  (0x1F11F, 0x504152454E54484553495A4544204C4154494E204341504954414C204C4554544552205020),
  (0x1F120, 0x504152454E54484553495A4544204C4154494E204341504954414C204C4554544552205120),
  (0x1F121, 0x504152454E54484553495A4544204C4154494E204341504954414C204C4554544552205220),
  (0x1F122, 0x504152454E54484553495A4544204C4154494E204341504954414C204C4554544552205320),
  (0x1F123, 0x504152454E54484553495A4544204C4154494E204341504954414C204C4554544552205420),
  (0x1F124, 0x504152454E54484553495A4544204C4154494E204341504954414C204C4554544552205520),
  (0x1F125, 0x504152454E54484553495A4544204C4154494E204341504954414C204C4554544552205620),
  (0x1F126, 0x504152454E54484553495A4544204C4154494E204341504954414C204C4554544552205720),
  (0x1F127, 0x504152454E54484553495A4544204C4154494E204341504954414C204C4554544552205820),
  (0x1F128, 0x504152454E54484553495A4544204C4154494E204341504954414C204C4554544552205920),
  (0x1F129, 0x504152454E54484553495A4544204C4154494E204341504954414C204C4554544552205A20)]
def names_452 : List (Nat × Nat) := [
  (0x1F12A, 0x544F52544F495345205348454C4C20425241434B45544544204C4154494E204341504954414C204C4554544552205320),
  (0x1F12B, 0x434952434C4544204954414C4943204C4154494E204341504954414C204C4554544552204320),
  (0x1F12C, 0x434952434C4544204954414C4943204C4154494E204341504954414C204C4554544552205220),
  (0x1F12D, 0x434952434C454420434420),
  (0x1F12E, 0x434952434C454420575A20),
  (0x1F130, 0x53515541524544204C4154494E204341504954414C204C4554544552204120),
  (0x1F131, 0x53515541524544204C4154494E204341504954414C204C4554544552204220),
  (0x1F132, 0x53515541524544204C4154494E204341504954414C204C4554544552204320),
  (0x1F133, 0x53515541524544204C4154494E204341504954414C204C4554544552204420),
  (0x1F134, 0x53515541524544204C4154494E204341504954414C204C4554544552204520),
  (0x1F135, 0x53515541524544204C4154494E204341504954414C204C4554544552204620),
  (0x1F136, 0x53515541524544204C4154494E204341504954414C204C4554544552204720),
  (0x1F137, 0x53515541524544204C4154494E204341504954414C204C4554544552204820),
  (0x1F138, 0x53515541524544204C4154494E204341504954414C204C4554544552204920),
  (0x1F139, 0x53515541524544204C4154494E204341504954414C204C4554544552204A20),
  (0x1F13A, 0x53515541524544204C4154494E204341504954414C204C4554544552204B20),
  (0x1F13B, 0x53515541524544204C4154494E204341504954414C204C4554544552204C20),
  (0x1F13C, 0x53515541524544204C4154494E204341504954414C204C4554544552204D20),
  (0x1F13D, 0x53515541524544204C4154494E204341504954414C204C4554544552204E20),
  (0x1F13E, 0x53515541524544204C4154494E204341504954414C204C4554544552204F20),
  (0x1F13F, 0x53515541524544204C4154494E204341504954414C204C4554544552205020),
  (0x1F140, 0x53515541524544204C4154494E204341504954414C204C4554544552205120),
  (0x1F141, 0x53515541524544204C4154494E204341504954414C204C4554544552205220),
  (0x1F142, 0x53515541524544204C4154494E204341504954414C204C4554544552205320),
  (0x1F143, 0x53515541524544204C4154494E204341504954414C204C4554544552205420),
  (0x1F144, 0x53515541524544204C4154494E204341504954414C204C4554544552205520),
  (0x1F145, 0x53515541524544204C4154494E204341504954414C204C4554544552205620),
  (0x1F146, 0x53515541524544204C4154494E204341504954414C204C4554544552205720),
  (0x1F147, 0x53515541524544204C4154494E204341504954414C204C4554544552205820),
  (0x1F148, 0x53515541524544204C4154494E204341504954414C204C4554544552205920),
  (0x1F149, 0x53515541524544204C4154494E204341504954414C204C4554544552205A20),
  (0x1F14A, 0x5351554152454420485620),
  (0x1F14B, 0x53515541524544204D5620),
  (0x1F14C, 0x5351554152454420534420),
  (0x1F14D, 0x5351554152454420535320),
  (0x1F14E, 0x535155415245442050505620),
  (0x1F14F, 0x5351554152454420574320),
  (0x1F150, 0x4E4547415449564520434952434C4544204C4154494E204341504954414C204C4554544552204120),
  (0x1F151, 0x4E4547415449564520434952434C4544204C4154494E204341504954414C204C4554544552204220),
  (0x1F152, 0x4E4547415449564520434952434C4544204C4154494E204341504954414C204C4554544552204320),
  (0x1F153, 0x4E4547415449564520434952434C4544204C4154494E204341504954414C204C4554544552204420),
  (0x1F154, 0x4E4547415449564520434952434C4544204C4154494E204341504954414C204C4554544552204520),
  (0x1F155, 0x4E4547415449564520434952434C4544204C4154494E204341504954414C204C4554544552204620),
  (0x1F156, 0x4E4547415449564520434952434C4544204C4154494E204341504954414C204C4554544552204720),
  (0x1F157, 0x4E4547415449564520434952434C4544204C4154494E204341504954414C204C4554544552204820),
  (0x1F158, 0x4E4547415449564520434952434C4544204C4154494E204341504954414C204C4554544552204920),
  (0x1F159, 0x4E4547415449564520434952434C4544204C4154494E204341504954414C204C4554544552204A20),
  (0x1F15A, 0x4E4547415449564520434952434C4544204C4154494E204341504954414C204C4554544552204B20),
  (0x1F15B, 0x4E4547415449564520434952434C4544204C4154494E204341504954414C204C4554544552204C20),
  (0x1F15C, 0x4E4547415449564520434952434C4544204C4154494E204341504954414C204C4554544552204D20),
  (0x1F15D, 0x4E4547415449564520434952434C4544204C4154494E204341504954414C204C4554544552204E20),
  (0x1F15E, 0x4E4547415449564520434952434C4544204C4154494E204341504954414C204C4554544552204F20),
  (0x1F15F, 0x4E4547415449564520434952434C4544204C4154494E204341504954414C204C4554544552205020),
  (0x1F160, 0x4E4547415449564520434952434C4544204C4154494E204341504954414C204C4554544552205120),
  (0x1F161, 0x4E4547415449564520434952434C4544204C4154494E204341504954414C204C4554544552205220),
  (0x1F162, 0x4E4547415449564520434952434C4544204C4154494E204341504954414C204C4554544552205320),
  (0x1F163, 0x4E4547415449564520434952434C4544204C4154494E204341504954414C204C4554544552205420),
  (0x1F164, 0x4E4547415449564520434952434C4544204C4154494E204341504954414C204C4554544552205520),
  (0x1F165, 0x4E4547415449564520434952434C4544204C4154494E204341504954414C204C4554544552205620),
  (0x1F166, 0x4E4547415449564520434952434C4544204C4154494E204341504954414C204C4554544552205720),
  (0x1F167, 0x4E4547415449564520434952434C4544204C4154494E204341504954414C204C4554544552205820),
  (0x1F168, 0x4E4547415449564520434952434C4544204C4154494E204341504954414C204C4554544552205920),
  (0x1F169, 0x4E4547415449564520434952434C4544204C4154494E204341504954414C204C4554544552205A20),
  (0x1F16A, 0x524149534544204D43205349474E20)]
def names_453 : List (Nat × Nat) := [
  (0x1F16B, 0x524149534544204D44205349474E20),
  (0x1F170, 0x4E454741544956452053515541524544204C4154494E204341504954414C204C4554544552204120),
  (0x1F171, 0x4E454741544956452053515541524544204C4154494E204341504954414C204C4554544552204220),
  (0x1F172, 0x4E454741544956452053515541524544204C4154494E204341504954414C204C4554544552204320),
  (0x1F173, 0x4E454741544956452053515541524544204C4154494E204341504954414C204C4554544552204420),
  (0x1F174, 0x4E454741544956452053515541524544204C4154494E204341504954414C204C4554544552204520),
  (0x1F175, 0x4E454741544956452053515541524544204C4154494E204341504954414C204C4554544552204620),
  (0x1F176, 0x4E454741544956452053515541524544204C4154494E204341504954414C204C4554544552204720),
  (0x1F177, 0x4E454741544956452053515541524544204C4154494E204341504954414C204C4554544552204820),
  (0x1F178, 0x4E454741544956452053515541524544204C4154494E204341504954414C204C4554544552204920),
  (0x1F179, 0x4E454741544956452053515541524544204C4154494E204341504954414C204C4554544552204A20),
  (0x1F17A, 0x4E454741544956452053515541524544204C4154494E204341504954414C204C4554544552204B20),
  (0x1F17B, 0x4E454741544956452053515541524544204C4154494E204341504954414C204C4554544552204C20),
  (0x1F17C, 0x4E454741544956452053515541524544204C4154494E204341504954414C204C4554544552204D20),
  (0x1F17D, 0x4E454741544956452053515541524544204C4154494E204341504954414C204C4554544552204E20),
  (0x1F17E, 0x4E454741544956452053515541524544204C4154494E204341504954414C204C4554544552204F20),
  (0x1F17F, 0x4E454741544956452053515541524544204C4154494E204341504954414C204C4554544552205020),
  (0x1F180, 0x4E454741544956452053515541524544204C4154494E204341504954414C204C4554544552205120),
  (0x1F181, 0x4E454741544956452053515541524544204C4154494E204341504954414C204C4554544552205220),
  (0x1F182, 0x4E454741544956452053515541524544204C4154494E204341504954414C204C4554544552205320),
  (0x1F183, 0x4E454741544956452053515541524544204C4154494E204341504954414C204C4554544552205420),
  (0x1F184, 0x4E454741544956452053515541524544204C4154494E204341504954414C204C4554544552205520),
  (0x1F185, 0x4E454741544956452053515541524544204C4154494E204341504954414C204C4554544552205620),
  (0x1F186, 0x4E454741544956452053515541524544204C4154494E204341504954414C204C4554544552205720),
  (0x1F187, 0x4E454741544956452053515541524544204C4154494E204341504954414C204C4554544552205820),
  (0x1F188, 0x4E454741544956452053515541524544204C4154494E204341504954414C204C4554544552205920),
  (0x1F189, 0x4E454741544956452053515541524544204C4154494E204341504954414C204C4554544552205A20),
  (0x1F18A, 0x43524F53534544204E454741544956452053515541524544204C4154494E204341504954414C204C4554544552205020),
  (0x1F18B, 0x4E45474154495645205351554152454420494320),
  (0x1F18C, 0x4E45474154495645205351554152454420504120),
  (0x1F18D, 0x4E45474154495645205351554152454420534120),
  (0x1F18E, 0x4E45474154495645205351554152454420414220),
  (0x1F18F, 0x4E45474154495645205351554152454420574320),
  (0x1F190, 0x53515541524520444A20),
  (0x1F191, 0x5351554152454420434C20),
  (0x1F192, 0x5351554152454420434F4F4C20),
  (0x1F193, 0x53515541524544204652454520),
  (0x1F194, 0x5351554152454420494420),
  (0x1F195, 0x53515541524544204E455720),
  (0x1F196, 0x53515541524544204E4720),
  (0x1F197, 0x53515541524544204F4B20),
  (0x1F198, 0x5351554152454420534F5320),
  (0x1F199, 0x535155415245442055502057495448204558434C414D4154494F4E204D41524B20),
  (0x1F19A, 0x5351554152454420565320),
  (0x1F19B, 0x53515541524544205448524545204420),
  (0x1F19C, 0x53515541524544205345434F4E442053435245454E20),
  (0x1F19D, 0x535155415245442054574F204B20),
  (0x1F19E, 0x5351554152454420464F5552204B20),
  (0x1F19F, 0x53515541524544204549474854204B20),
  (0x1F1A0, 0x53515541524544204649564520504F494E54204F4E4520),
  (0x1F1A1, 0x5351554152454420534556454E20504F494E54204F4E4520),
  (0x1F1A2, 0x53515541524544205457454E54592D54574F20504F494E542054574F20),
  (0x1F1A3, 0x53515541524544205349585459205020),
  (0x1F1A4, 0x53515541524544204F4E452048554E44524544205457454E5459205020),
  (0x1F1A5, 0x53515541524544204C4154494E20534D414C4C204C4554544552204420),
  (0x1F1A6, 0x5351554152454420484320),
  (0x1F1A7, 0x535155415245442048445220),
  (0x1F1A8, 0x535155415245442048492D52455320),
  (0x1F1A9, 0x53515541524544204C4F53534C45535320),
  (0x1F1AA, 0x535155415245442053485620),
  (0x1F1AB, 0x535155415245442055484420),
  (0x1F1AC, 0x5351554152454420564F4420),
  (0x1F1E6, 0x524547494F4E414C20494E44494341544F522053594D424F4C204C4554544552204120),
  (0x1F1E7, 0x524547494F4E414C20494E44494341544F522053594D424F4C204C4554544552204220)]
def names_454 : List (Nat × Nat) := [
  (0x1F1E8, 0x524547494F4E414C20494E44494341544F522053594D424F4C204C4554544552204320),
  (0x1F1E9, 0x524547494F4E414C20494E44494341544F522053594D424F4C204C4554544552204420),
  (0x1F1EA, 0x524547494F4E414C20494E44494341544F522053594D424F4C204C4554544552204520),
  (0x1F1EB, 0x524547494F4E414C20494E44494341544F522053594D424F4C204C4554544552204620),
  (0x1F1EC, 0x524547494F4E414C20494E44494341544F522053594D424F4C204C4554544552204720),
  (0x1F1ED, 0x524547494F4E414C20494E44494341544F522053594D424F4C204C4554544552204820),
  (0x1F1EE, 0x524547494F4E414C20494E44494341544F522053594D424F4C204C4554544552204920),
  (0x1F1EF, 0x524547494F4E414C20494E44494341544F522053594D424F4C204C4554544552204A20),
  (0x1F1F0, 0x524547494F4E414C20494E44494341544F522053594D424F4C204C4554544552204B20),
  (0x1F1F1, 0x524547494F4E414C20494E44494341544F522053594D424F4C204C4554544552204C20),
  (0x1F1F2, 0x524547494F4E414C20494E44494341544F522053594D424F4C204C4554544552204D20),
  (0x1F1F3, 0x524547494F4E414C20494E44494341544F522053594D424F4C204C4554544552204E20),
  (0x1F1F4, 0x524547494F4E414C20494E44494341544F522053594D424F4C204C4554544552204F20),
  (0x1F1F5, 0x524547494F4E414C20494E44494341544F522053594D424F4C204C4554544552205020),
  (0x1F1F6, 0x524547494F4E414C20494E44494341544F522053594D424F4C204C4554544552205120),
  (0x1F1F7, 0x524547494F4E414C20494E44494341544F522053594D424F4C204C4554544552205220),
  (0x1F1F8, 0x524547494F4E414C20494E44494341544F522053594D424F4C204C4554544552205320),
  (0x1F1F9, 0x524547494F4E414C20494E44494341544F522053594D424F4C204C4554544552205420),
  (0x1F1FA, 0x524547494F4E414C20494E44494341544F522053594D424F4C204C4554544552205520),
  (0x1F1FB, 0x524547494F4E414C20494E44494341544F522053594D424F4C204C4554544552205620),
  (0x1F1FC, 0x524547494F4E414C20494E44494341544F522053594D424F4C204C4554544552205720),
  (0x1F1FD, 0x524547494F4E414C20494E44494341544F522053594D424F4C204C4554544552205820),
  (0x1F1FE, 0x524547494F4E414C20494E44494341544F522053594D424F4C204C4554544552205920),
  (0x1F1FF, 0x524547494F4E414C20494E44494341544F522053594D424F4C204C4554544552205A20),
  (0x1F200, 0x535155415245204849524147414E4120484F4B4120),
  (0x1F201, 0x53515541524544204B4154414B414E41204B4F4B4F20),
  (0x1F202, 0x53515541524544204B4154414B414E4120534120),
  (0x1F210, 0x5351554152454420434A4B20554E4946494544204944454F47524150482D3632344220),
  (0x1F211, 0x5351554152454420434A4B20554E4946494544204944454F47524150482D3542353720),
  (0x1F212, 0x5351554152454420434A4B20554E4946494544204944454F47524150482D3533434320),
  (0x1F213, 0x53515541524544204B4154414B414E4120444520),
  (0x1F214, 0x5351554152454420434A4B20554E4946494544204944454F47524150482D3445384320),
  (0x1F215, 0x5351554152454420434A4B20554E4946494544204944454F47524150482D3539314120),
  (0x1F216, 0x5351554152454420434A4B20554E4946494544204944454F47524150482D3839453320),
  (0x1F217, 0x5351554152454420434A4B20554E4946494544204944454F47524150482D3539323920),
  (0x1F218, 0x5351554152454420434A4B20554E4946494544204944454F47524150482D3445413420),
  (0x1F219, 0x5351554152454420434A4B20554E4946494544204944454F47524150482D3636323020),
  (0x1F21A, 0x5351554152454420434A4B20554E4946494544204944454F47524150482D3731323120),
  (0x1F21B, 0x5351554152454420434A4B20554E4946494544204944454F47524150482D3635393920),
  (0x1F21C, 0x5351554152454420434A4B20554E4946494544204944454F47524150482D3532344420),
  (0x1F21D, 0x5351554152454420434A4B20554E4946494544204944454F47524150482D3546384320),
  (0x1F21E, 0x5351554152454420434A4B20554E4946494544204944454F47524150482D3531384420),
  (0x1F21F, 0x5351554152454420434A4B20554E4946494544204944454F47524150482D3635423020),
  (0x1F220, 0x5351554152454420434A4B20554E4946494544204944454F47524150482D3532314420),
  (0x1F221, 0x5351554152454420434A4B20554E4946494544204944454F47524150482D3744343220),
  (0x1F222, 0x5351554152454420434A4B20554E4946494544204944454F47524150482D3735314620),
  (0x1F223, 0x5351554152454420434A4B20554E4946494544204944454F47524150482D3843413920),
  (0x1F224, 0x5351554152454420434A4B20554E4946494544204944454F47524150482D3538463020),
  (0x1F225, 0x5351554152454420434A4B20554E4946494544204944454F47524150482D3534333920),
  (0x1F226, 0x5351554152454420434A4B20554E4946494544204944454F47524150482D3646313420),
  (0x1F227, 0x5351554152454420434A4B20554E4946494544204944454F47524150482D3632393520),
  (0x1F228, 0x5351554152454420434A4B20554E4946494544204944454F47524150482D3633353520),
  (0x1F229, 0x5351554152454420434A4B20554E4946494544204944454F47524150482D3445303020),
  (0x1F22A, 0x5351554152454420434A4B20554E4946494544204944454F47524150482D3445303920),
  (0x1F22B, 0x5351554152454420434A4B20554E4946494544204944454F47524150482D3930344120),
  (0x1F22C, 0x5351554152454420434A4B20554E4946494544204944454F47524150482D3544453620),
  (0x1F22D, 0x5351554152454420434A4B20554E4946494544204944454F47524150482D3445324420),
  (0x1F22E, 0x5351554152454420434A4B20554E4946494544204944454F47524150482D3533463320),
  (0x1F22F, 0x5351554152454420434A4B20554E4946494544204944454F47524150482D3633303720),
  (0x1F230, 0x5351554152454420434A4B20554E4946494544204944454F47524150482D3844373020),
  (0x1F231, 0x5351554152454420434A4B20554E4946494544204944454F47524150482D3632353320),
  (0x1F232, 0x5351554152454420434A4B20554E4946494544204944454F47524150482D3739383120),
  (0x1F233, 0x5351554152454420434A4B20554E4946494544204944454F47524150482D3741374120),
  (0x1F234, 0x5351554152454420434A4B20554E4946494544204944454F47524150482D3534303820)]
def names_455 : List (Nat × Nat) := [
  (0x1F235, 0x5351554152454420434A4B20554E4946494544204944454F47524150482D3645383020),
  (0x1F236, 0x5351554152454420434A4B20554E4946494544204944454F47524150482D3637303920),
  (0x1F237, 0x5351554152454420434A4B20554E4946494544204944454F47524150482D3637303820),
  (0x1F238, 0x5351554152454420434A4B20554E4946494544204944454F47524150482D3735333320),
  (0x1F239, 0x5351554152454420434A4B20554E4946494544204944454F47524150482D3532373220),
  (0x1F23A, 0x5351554152454420434A4B20554E4946494544204944454F47524150482D3535423620),
  (0x1F23B, 0x5351554152454420434A4B20554E4946494544204944454F47524150482D3931344420),
  (0x1F240, 0x544F52544F495345205348454C4C20425241434B4554454420434A4B20554E4946494544204944454F47524150482D3637324320),
  (0x1F241, 0x544F52544F495345205348454C4C20425241434B4554454420434A4B20554E4946494544204944454F47524150482D3445303920),
  (0x1F242, 0x544F52544F495345205348454C4C20425241434B4554454420434A4B20554E4946494544204944454F47524150482D3445384320),
  (0x1F243, 0x544F52544F495345205348454C4C20425241434B4554454420434A4B20554E4946494544204944454F47524150482D3542383920),
  (0x1F244, 0x544F52544F495345205348454C4C20425241434B4554454420434A4B20554E4946494544204944454F47524150482D3730423920),
  (0x1F245, 0x544F52544F495345205348454C4C20425241434B4554454420434A4B20554E4946494544204944454F47524150482D3632353320),
  (0x1F246, 0x544F52544F495345205348454C4C20425241434B4554454420434A4B20554E4946494544204944454F47524150482D3736443720),
  (0x1F247, 0x544F52544F495345205348454C4C20425241434B4554454420434A4B20554E4946494544204944454F47524150482D3532444420),
  (0x1F248, 0x544F52544F495345205348454C4C20425241434B4554454420434A4B20554E4946494544204944454F47524150482D3635353720),
  (0x1F250, 0x434952434C4544204944454F475241504820414456414E5441474520),
  (0x1F251, 0x434952434C4544204944454F47524150482041434345505420),
  (0x1F260, 0x524F554E4445442053594D424F4C20464F5220465520),
  (0x1F261, 0x524F554E4445442053594D424F4C20464F52204C5520),
  (0x1F262, 0x524F554E4445442053594D424F4C20464F522053484F5520),
  (0x1F263, 0x524F554E4445442053594D424F4C20464F5220584920),
  (0x1F264, 0x524F554E4445442053594D424F4C20464F5220534855414E47584920),
  (0x1F265, 0x524F554E4445442053594D424F4C20464F522043414920),
  (0x1F300, 0x4359434C4F4E4520),
  (0x1F301, 0x464F47475920),
  (0x1F302, 0x434C4F53454420554D4252454C4C4120),
  (0x1F303, 0x4E49474854205749544820535441525320),
  (0x1F304, 0x53554E52495345204F564552204D4F554E5441494E5320),
  (0x1F305, 0x53554E5249534520),
  (0x1F306, 0x434954595343415045204154204455534B20),
  (0x1F307, 0x53554E534554204F564552204255494C44494E475320),
  (0x1F308, 0x5241494E424F5720),
  (0x1F309, 0x425249444745204154204E4947485420),
  (0x1F30A, 0x5741544552205741564520),
  (0x1F30B, 0x564F4C43414E4F20),
  (0x1F30C, 0x4D494C4B592057415920),
  (0x1F30D, 0x454152544820474C4F4245204555524F50452D41465249434120),
  (0x1F30E, 0x454152544820474C4F424520414D45524943415320),
  (0x1F30F, 0x454152544820474C4F424520415349412D4155535452414C494120),
  (0x1F310, 0x474C4F42452057495448204D4552494449414E5320),
  (0x1F311, 0x4E4557204D4F4F4E2053594D424F4C20),
  (0x1F312, 0x574158494E47204352455343454E54204D4F4F4E2053594D424F4C20),
  (0x1F313, 0x46495253542051554152544552204D4F4F4E2053594D424F4C20),
  (0x1F314, 0x574158494E4720474942424F5553204D4F4F4E2053594D424F4C20),
  (0x1F315, 0x46554C4C204D4F4F4E2053594D424F4C20),
  (0x1F316, 0x57414E494E4720474942424F5553204D4F4F4E2053594D424F4C20),
  (0x1F317, 0x4C4153542051554152544552204D4F4F4E2053594D424F4C20),
  (0x1F318, 0x57414E494E47204352455343454E54204D4F4F4E2053594D424F4C20),
  (0x1F319, 0x4352455343454E54204D4F4F4E20),
  (0x1F31A, 0x4E4557204D4F4F4E2057495448204641434520),
  (0x1F31B, 0x46495253542051554152544552204D4F4F4E2057495448204641434520),
  (0x1F31C, 0x4C4153542051554152544552204D4F4F4E2057495448204641434520),
  (0x1F31D, 0x46554C4C204D4F4F4E2057495448204641434520),
  (0x1F31E, 0x53554E2057495448204641434520),
  (0x1F31F, 0x474C4F57494E47205354415220),
  (0x1F320, 0x53484F4F54494E47205354415220),
  (0x1F321, 0x544845524D4F4D4554455220),
  (0x1F322, 0x424C41434B2044524F504C455420),
  (0x1F323, 0x57484954452053554E20),
  (0x1F324, 0x57484954452053554E205749544820534D414C4C20434C4F554420),
  (0x1F325, 0x57484954452053554E20424548494E4420434C4F554420),
  (0x1F326, 0x57484954452053554E20424548494E4420434C4F55442057495448205241494E20),
  (0x1F327, 0x434C4F55442057495448205241494E20)]
def names_456 : List (Nat × Nat) := [
  (0x1F328, 0x434C4F5544205749544820534E4F5720),
  (0x1F329, 0x434C4F55442057495448204C494748544E494E4720),
  (0x1F32A, 0x434C4F5544205749544820544F524E41444F20),
  (0x1F32B, 0x464F4720),
  (0x1F32C, 0x57494E4420424C4F57494E47204641434520),
  (0x1F32D, 0x484F5420444F4720),
  (0x1F32E, 0x5441434F20),
  (0x1F32F, 0x4255525249544F20),
  (0x1F330, 0x43484553544E555420),
  (0x1F331, 0x534545444C494E4720),
  (0x1F332, 0x45564552475245454E205452454520),
  (0x1F333, 0x4445434944554F5553205452454520),
  (0x1F334, 0x50414C4D205452454520),
  (0x1F335, 0x43414354555320),
  (0x1F336, 0x484F542050455050455220),
  (0x1F337, 0x54554C495020),
  (0x1F338, 0x43484552525920424C4F53534F4D20),
  (0x1F339, 0x524F534520),
  (0x1F33A, 0x484942495343555320),
  (0x1F33B, 0x53554E464C4F57455220),
  (0x1F33C, 0x424C4F53534F4D20),
  (0x1F33D, 0x454152204F46204D41495A4520),
  (0x1F33E, 0x454152204F46205249434520),
  (0x1F33F, 0x4845524220),
  (0x1F340, 0x464F5552204C45414620434C4F56455220),
  (0x1F341, 0x4D41504C45204C45414620),
  (0x1F342, 0x46414C4C454E204C45414620),
  (0x1F343, 0x4C45414620464C5554544552494E4720494E2057494E4420),
  (0x1F344, 0x4D555348524F4F4D20),
  (0x1F345, 0x544F4D41544F20),
  (0x1F346, 0x415542455247494E4520),
  (0x1F347, 0x47524150455320),
  (0x1F348, 0x4D454C4F4E20),
  (0x1F349, 0x57415445524D454C4F4E20),
  (0x1F34A, 0x54414E474552494E4520),
  (0x1F34B, 0x4C454D4F4E20),
  (0x1F34C, 0x42414E414E4120),
  (0x1F34D, 0x50494E454150504C4520),
  (0x1F34E, 0x524544204150504C4520),
  (0x1F34F, 0x475245454E204150504C4520),
  (0x1F350, 0x5045415220),
  (0x1F351, 0x504541434820),
  (0x1F352, 0x434845525249455320),
  (0x1F353, 0x5354524157424552525920),
  (0x1F354, 0x48414D42555247455220),
  (0x1F355, 0x534C494345204F462050495A5A4120),
  (0x1F356, 0x4D454154204F4E20424F4E4520),
  (0x1F357, 0x504F554C545259204C454720),
  (0x1F358, 0x5249434520435241434B455220),
  (0x1F359, 0x524943452042414C4C20),
  (0x1F35A, 0x434F4F4B4544205249434520),
  (0x1F35B, 0x435552525920414E44205249434520),
  (0x1F35C, 0x535445414D494E4720424F574C20),
  (0x1F35D, 0x53504147484554544920),
  (0x1F35E, 0x425245414420),
  (0x1F35F, 0x4652454E434820465249455320),
  (0x1F360, 0x524F415354454420535745455420504F5441544F20),
  (0x1F361, 0x44414E474F20),
  (0x1F362, 0x4F44454E20),
  (0x1F363, 0x535553484920),
  (0x1F364, 0x465249454420534852494D5020),
  (0x1F365, 0x464953482043414B45205749544820535749524C2044455349474E20),
  (0x1F366, 0x534F46542049434520435245414D20),
  (0x1F367, 0x5348415645442049434520)]
def names_457 : List (Nat × Nat) := [
  (0x1F368, 0x49434520435245414D20),
  (0x1F369, 0x444F5547484E555420),
  (0x1F36A, 0x434F4F4B494520),
  (0x1F36B, 0x43484F434F4C4154452042415220),
  (0x1F36C, 0x43414E445920),
  (0x1F36D, 0x4C4F4C4C49504F5020),
  (0x1F36E, 0x4355535441524420),
  (0x1F36F, 0x484F4E455920504F5420),
  (0x1F370, 0x53484F525443414B4520),
  (0x1F371, 0x42454E544F20424F5820),
  (0x1F372, 0x504F54204F4620464F4F4420),
  (0x1F373, 0x434F4F4B494E4720),
  (0x1F374, 0x464F524B20414E44204B4E49464520),
  (0x1F375, 0x54454143555020574954484F55542048414E444C4520),
  (0x1F376, 0x53414B4520424F54544C4520414E442043555020),
  (0x1F377, 0x57494E4520474C41535320),
  (0x1F378, 0x434F434B5441494C20474C41535320),
  (0x1F379, 0x54524F504943414C204452494E4B20),
  (0x1F37A, 0x42454552204D554720),
  (0x1F37B, 0x434C494E4B494E472042454552204D55475320),
  (0x1F37C, 0x4241425920424F54544C4520),
  (0x1F37D, 0x464F524B20414E44204B4E494645205749544820504C41544520),
  (0x1F37E, 0x424F54544C45205749544820504F5050494E4720434F524B20),
  (0x1F37F, 0x504F50434F524E20),
  (0x1F380, 0x524942424F4E20),
  (0x1F381, 0x575241505045442050524553454E5420),
  (0x1F382, 0x42495254484441592043414B4520),
  (0x1F383, 0x4A41434B2D4F2D4C414E5445524E20),
  (0x1F384, 0x4348524953544D4153205452454520),
  (0x1F385, 0x464154484552204348524953544D415320),
  (0x1F386, 0x46495245574F524B5320),
  (0x1F387, 0x46495245574F524B20535041524B4C455220),
  (0x1F388, 0x42414C4C4F4F4E20),
  (0x1F389, 0x504152545920504F5050455220),
  (0x1F38A, 0x434F4E46455454492042414C4C20),
  (0x1F38B, 0x54414E4142415441205452454520),
  (0x1F38C, 0x43524F5353454420464C41475320),
  (0x1F38D, 0x50494E45204445434F524154494F4E20),
  (0x1F38E, 0x4A4150414E45534520444F4C4C5320),
  (0x1F38F, 0x434152502053545245414D455220),
  (0x1F390, 0x57494E44204348494D4520),
  (0x1F391, 0x4D4F4F4E2056494557494E4720434552454D4F4E5920),
  (0x1F392, 0x5343484F4F4C205341544348454C20),
  (0x1F393, 0x47524144554154494F4E2043415020),
  (0x1F394, 0x4845415254205749544820544950204F4E20544845204C45465420),
  (0x1F395, 0x424F5551554554204F4620464C4F5745525320),
  (0x1F396, 0x4D494C4954415259204D4544414C20),
  (0x1F397, 0x52454D494E44455220524942424F4E20),
  (0x1F398, 0x4D55534943414C204B4559424F4152442057495448204A41434B5320),
  (0x1F399, 0x53545544494F204D4943524F50484F4E4520),
  (0x1F39A, 0x4C4556454C20534C4944455220),
  (0x1F39B, 0x434F4E54524F4C204B4E4F425320),
  (0x1F39C, 0x4245414D454420415343454E44494E47204D55534943414C204E4F54455320),
  (0x1F39D, 0x4245414D45442044455343454E44494E47204D55534943414C204E4F54455320),
  (0x1F39E, 0x46494C4D204652414D455320),
  (0x1F39F, 0x41444D495353494F4E205449434B45545320),
  (0x1F3A0, 0x4341524F5553454C20484F52534520),
  (0x1F3A1, 0x46455252495320574845454C20),
  (0x1F3A2, 0x524F4C4C455220434F415354455220),
  (0x1F3A3, 0x46495348494E4720504F4C4520414E44204649534820),
  (0x1F3A4, 0x4D4943524F50484F4E4520),
  (0x1F3A5, 0x4D4F5649452043414D45524120),
  (0x1F3A6, 0x43494E454D4120),
  (0x1F3A7, 0x4845414450484F4E4520)]
def names_458 : List (Nat × Nat) := [
  (0x1F3A8, 0x4152544953542050414C4554544520),
  (0x1F3A9, 0x544F502048415420),
  (0x1F3AA, 0x4349524355532054454E5420),
  (0x1F3AB, 0x5449434B455420),
  (0x1F3AC, 0x434C415050455220424F41524420),
  (0x1F3AD, 0x504552464F524D494E47204152545320),
  (0x1F3AE, 0x564944454F2047414D4520),
  (0x1F3AF, 0x4449524543542048495420),
  (0x1F3B0, 0x534C4F54204D414348494E4520),
  (0x1F3B1, 0x42494C4C494152445320),
  (0x1F3B2, 0x47414D452044494520),
  (0x1F3B3, 0x424F574C494E4720),
  (0x1F3B4, 0x464C4F57455220504C4159494E4720434152445320),
  (0x1F3B5, 0x4D55534943414C204E4F544520),
  (0x1F3B6, 0x4D554C5449504C45204D55534943414C204E4F54455320),
  (0x1F3B7, 0x5341584F50484F4E4520),
  (0x1F3B8, 0x47554954415220),
  (0x1F3B9, 0x4D55534943414C204B4559424F41524420),
  (0x1F3BA, 0x5452554D50455420),
  (0x1F3BB, 0x56494F4C494E20),
  (0x1F3BC, 0x4D55534943414C2053434F524520),
  (0x1F3BD, 0x52554E4E494E472053484952542057495448205341534820),
  (0x1F3BE, 0x54454E4E4953205241435155455420414E442042414C4C20),
  (0x1F3BF, 0x534B4920414E4420534B4920424F4F5420),
  (0x1F3C0, 0x4241534B455442414C4C20414E4420484F4F5020),
  (0x1F3C1, 0x43484551554552454420464C414720),
  (0x1F3C2, 0x534E4F57424F415244455220),
  (0x1F3C3, 0x52554E4E455220),
  (0x1F3C4, 0x53555246455220),
  (0x1F3C5, 0x53504F525453204D4544414C20),
  (0x1F3C6, 0x54524F50485920),
  (0x1F3C7, 0x484F52534520524143494E4720),
  (0x1F3C8, 0x414D45524943414E20464F4F5442414C4C20),
  (0x1F3C9, 0x525547425920464F4F5442414C4C20),
  (0x1F3CA, 0x5357494D4D455220),
  (0x1F3CB, 0x574549474854204C494654455220),
  (0x1F3CC, 0x474F4C46455220),
  (0x1F3CD, 0x524143494E47204D4F544F524359434C4520),
  (0x1F3CE, 0x524143494E472043415220),
  (0x1F3CF, 0x435249434B45542042415420414E442042414C4C20),
  (0x1F3D0, 0x564F4C4C455942414C4C20),
  (0x1F3D1, 0x4649454C4420484F434B455920535449434B20414E442042414C4C20),
  (0x1F3D2, 0x49434520484F434B455920535449434B20414E44205055434B20),
  (0x1F3D3, 0x5441424C452054454E4E495320504144444C4520414E442042414C4C20),
  (0x1F3D4, 0x534E4F5720434150504544204D4F554E5441494E20),
  (0x1F3D5, 0x43414D50494E4720),
  (0x1F3D6, 0x4245414348205749544820554D4252454C4C4120),
  (0x1F3D7, 0x4255494C44494E4720434F4E535452554354494F4E20),
  (0x1F3D8, 0x484F555345204255494C44494E475320),
  (0x1F3D9, 0x43495459534341504520),
  (0x1F3DA, 0x444552454C49435420484F555345204255494C44494E4720),
  (0x1F3DB, 0x434C4153534943414C204255494C44494E4720),
  (0x1F3DC, 0x44455345525420),
  (0x1F3DD, 0x4445534552542049534C414E4420),
  (0x1F3DE, 0x4E4154494F4E414C205041524B20),
  (0x1F3DF, 0x5354414449554D20),
  (0x1F3E0, 0x484F555345204255494C44494E4720),
  (0x1F3E1, 0x484F55534520574954482047415244454E20),
  (0x1F3E2, 0x4F4646494345204255494C44494E4720),
  (0x1F3E3, 0x4A4150414E45534520504F5354204F464649434520),
  (0x1F3E4, 0x4555524F5045414E20504F5354204F464649434520),
  (0x1F3E5, 0x484F53504954414C20),
  (0x1F3E6, 0x42414E4B20),
  (0x1F3E7, 0x4155544F4D415445442054454C4C4552204D414348494E4520)]
def names_459 : List (Nat × Nat) := [
  (0x1F3E8, 0x484F54454C20),
  (0x1F3E9, 0x4C4F564520484F54454C20),
  (0x1F3EA, 0x434F4E56454E49454E43452053544F524520),
  (0x1F3EB, 0x5343484F4F4C20),
  (0x1F3EC, 0x4445504152544D454E542053544F524520),
  (0x1F3ED, 0x464143544F525920),
  (0x1F3EE, 0x495A414B415941204C414E5445524E20),
  (0x1F3EF, 0x4A4150414E45534520434153544C4520),
  (0x1F3F0, 0x4555524F5045414E20434153544C4520),
  (0x1F3F1, 0x57484954452050454E4E414E5420),
  (0x1F3F2, 0x424C41434B2050454E4E414E5420),
  (0x1F3F3, 0x574156494E4720574849544520464C414720),
  (0x1F3F4, 0x574156494E4720424C41434B20464C414720),
  (0x1F3F5, 0x524F534554544520),
  (0x1F3F6, 0x424C41434B20524F534554544520),
  (0x1F3F7, 0x4C4142454C20),
  (0x1F3F8, 0x4241444D494E544F4E205241435155455420414E442053485554544C45434F434B20),
  (0x1F3F9, 0x424F5720414E44204152524F5720),
  (0x1F3FA, 0x414D50484F524120),
  (0x1F3FB, 0x454D4F4A49204D4F444946494552204649545A5041545249434B20545950452D312D3220),
  (0x1F3FC, 0x454D4F4A49204D4F444946494552204649545A5041545249434B20545950452D3320),
  (0x1F3FD, 0x454D4F4A49204D4F444946494552204649545A5041545249434B20545950452D3420),
  (0x1F3FE, 0x454D4F4A49204D4F444946494552204649545A5041545249434B20545950452D3520),
  (0x1F3FF, 0x454D4F4A49204D4F444946494552204649545A5041545249434B20545950452D3620),
  (0x1F400, 0x52415420),
  (0x1F401, 0x4D4F55534520),
  (0x1F402, 0x4F5820),
  (0x1F403, 0x57415445522042554646414C4F20),
  (0x1F404, 0x434F5720),
  (0x1F405, 0x544947455220),
  (0x1F406, 0x4C454F5041524420),
  (0x1F407, 0x52414242495420),
  (0x1F408, 0x43415420),
  (0x1F409, 0x445241474F4E20),
  (0x1F40A, 0x43524F434F44494C4520),
  (0x1F40B, 0x5748414C4520),
  (0x1F40C, 0x534E41494C20),
  (0x1F40D, 0x534E414B4520),
  (0x1F40E, 0x484F52534520),
  (0x1F40F, 0x52414D20),
  (0x1F410, 0x474F415420),
  (0x1F411, 0x534845455020),
  (0x1F412, 0x4D4F4E4B455920),
  (0x1F413, 0x524F4F5354455220),
  (0x1F414, 0x434849434B454E20),
  (0x1F415, 0x444F4720),
  (0x1F416, 0x50494720),
  (0x1F417, 0x424F415220),
  (0x1F418, 0x454C455048414E5420),
  (0x1F419, 0x4F43544F50555320),
  (0x1F41A, 0x53504952414C205348454C4C20),
  (0x1F41B, 0x42554720),
  (0x1F41C, 0x414E5420),
  (0x1F41D, 0x484F4E455942454520),
  (0x1F41E, 0x4C41445920424545544C4520),
  (0x1F41F, 0x4649534820),
  (0x1F420, 0x54524F504943414C204649534820),
  (0x1F421, 0x424C4F574649534820),
  (0x1F422, 0x545552544C4520),
  (0x1F423, 0x4841544348494E4720434849434B20),
  (0x1F424, 0x4241425920434849434B20),
  (0x1F425, 0x46524F4E542D464143494E47204241425920434849434B20),
  (0x1F426, 0x4249524420),
  (0x1F427, 0x50454E4755494E20)]
def names_460 : List (Nat × Nat) := [
  (0x1F428, 0x4B4F414C4120),
  (0x1F429, 0x504F4F444C4520),
  (0x1F42A, 0x44524F4D45444152592043414D454C20),
  (0x1F42B, 0x424143545249414E2043414D454C20),
  (0x1F42C, 0x444F4C5048494E20),
  (0x1F42D, 0x4D4F555345204641434520),
  (0x1F42E, 0x434F57204641434520),
  (0x1F42F, 0x5449474552204641434520),
  (0x1F430, 0x524142424954204641434520),
  (0x1F431, 0x434154204641434520),
  (0x1F432, 0x445241474F4E204641434520),
  (0x1F433, 0x53504F5554494E47205748414C4520),
  (0x1F434, 0x484F525345204641434520),
  (0x1F435, 0x4D4F4E4B4559204641434520),
  (0x1F436, 0x444F47204641434520),
  (0x1F437, 0x504947204641434520),
  (0x1F438, 0x46524F47204641434520),
  (0x1F439, 0x48414D53544552204641434520),
  (0x1F43A, 0x574F4C46204641434520),
  (0x1F43B, 0x42454152204641434520),
  (0x1F43C, 0x50414E4441204641434520),
  (0x1F43D, 0x504947204E4F534520),
  (0x1F43E, 0x504157205052494E545320),
  (0x1F43F, 0x434849504D554E4B20),
  (0x1F440, 0x4559455320),
  (0x1F441, 0x45594520),
  (0x1F442, 0x45415220),
  (0x1F443, 0x4E4F534520),
  (0x1F444, 0x4D4F55544820),
  (0x1F445, 0x544F4E47554520),
  (0x1F446, 0x574849544520555020504F494E54494E47204241434B48414E4420494E44455820),
  (0x1F447, 0x574849544520444F574E20504F494E54494E47204241434B48414E4420494E44455820),
  (0x1F448, 0x5748495445204C45465420504F494E54494E47204241434B48414E4420494E44455820),
  (0x1F449, 0x574849544520524947485420504F494E54494E47204241434B48414E4420494E44455820),
  (0x1F44A, 0x4649535445442048414E44205349474E20),
  (0x1F44B, 0x574156494E472048414E44205349474E20),
  (0x1F44C, 0x4F4B2048414E44205349474E20),
  (0x1F44D, 0x5448554D4253205550205349474E20),
  (0x1F44E, 0x5448554D425320444F574E205349474E20),
  (0x1F44F, 0x434C415050494E472048414E4453205349474E20),
  (0x1F450, 0x4F50454E2048414E4453205349474E20),
  (0x1F451, 0x43524F574E20),
  (0x1F452, 0x574F4D414E532048415420),
  (0x1F453, 0x455945474C415353455320),
  (0x1F454, 0x4E45434B54494520),
  (0x1F455, 0x542D534849525420),
  (0x1F456, 0x4A45414E5320),
  (0x1F457, 0x445245535320),
  (0x1F458, 0x4B494D4F4E4F20),
  (0x1F459, 0x42494B494E4920),
  (0x1F45A, 0x574F4D414E5320434C4F5448455320),
  (0x1F45B, 0x505552534520),
  (0x1F45C, 0x48414E4442414720),
  (0x1F45D, 0x504F55434820),
  (0x1F45E, 0x4D414E532053484F4520),
  (0x1F45F, 0x4154484C455449432053484F4520),
  (0x1F460, 0x484947482D4845454C45442053484F4520),
  (0x1F461, 0x574F4D414E532053414E44414C20),
  (0x1F462, 0x574F4D414E5320424F4F545320),
  (0x1F463, 0x464F4F545052494E545320),
  (0x1F464, 0x4255535420494E2053494C484F554554544520),
  (0x1F465, 0x425553545320494E2053494C484F554554544520),
  (0x1F466, 0x424F5920),
  (0x1F467, 0x4749524C20)]
def names_461 : List (Nat × Nat) := [
  (0x1F468, 0x4D414E20),
  (0x1F469, 0x574F4D414E20),
  (0x1F46A, 0x46414D494C5920),
  (0x1F46B, 0x4D414E20414E4420574F4D414E20484F4C44494E472048414E445320),
  (0x1F46C, 0x54574F204D454E20484F4C44494E472048414E445320),
  (0x1F46D, 0x54574F20574F4D454E20484F4C44494E472048414E445320),
  (0x1F46E, 0x504F4C494345204F46464943455220),
  (0x1F46F, 0x574F4D414E20574954482042554E4E59204541525320),
  (0x1F470, 0x42524944452057495448205645494C20),
  (0x1F471, 0x504552534F4E205749544820424C4F4E44204841495220),
  (0x1F472, 0x4D414E205749544820475541205049204D414F20),
  (0x1F473, 0x4D414E20574954482054555242414E20),
  (0x1F474, 0x4F4C444552204D414E20),
  (0x1F475, 0x4F4C44455220574F4D414E20),
  (0x1F476, 0x4241425920),
  (0x1F477, 0x434F4E535452554354494F4E20574F524B455220),
  (0x1F478, 0x5052494E4345535320),
  (0x1F479, 0x4A4150414E455345204F47524520),
  (0x1F47A, 0x4A4150414E45534520474F424C494E20),
  (0x1F47B, 0x47484F535420),
  (0x1F47C, 0x4241425920414E47454C20),
  (0x1F47D, 0x4558545241544552524553545249414C20414C49454E20),
  (0x1F47E, 0x414C49454E204D4F4E5354455220),
  (0x1F47F, 0x494D5020),
  (0x1F480, 0x534B554C4C20),
  (0x1F481, 0x494E464F524D4154494F4E204445534B20504552534F4E20),
  (0x1F482, 0x4755415244534D414E20),
  (0x1F483, 0x44414E43455220),
  (0x1F484, 0x4C4950535449434B20),
  (0x1F485, 0x4E41494C20504F4C49534820),
  (0x1F486, 0x46414345204D41535341474520),
  (0x1F487, 0x4841495243555420),
  (0x1F488, 0x42415242455220504F4C4520),
  (0x1F489, 0x535952494E474520),
  (0x1F48A, 0x50494C4C20),
  (0x1F48B, 0x4B495353204D41524B20),
  (0x1F48C, 0x4C4F5645204C455454455220),
  (0x1F48D, 0x52494E4720),
  (0x1F48E, 0x47454D2053544F4E4520),
  (0x1F48F, 0x4B49535320),
  (0x1F490, 0x424F555155455420),
  (0x1F491, 0x434F55504C45205749544820484541525420),
  (0x1F492, 0x57454444494E4720),
  (0x1F493, 0x42454154494E4720484541525420),
  (0x1F494, 0x42524F4B454E20484541525420),
  (0x1F495, 0x54574F2048454152545320),
  (0x1F496, 0x535041524B4C494E4720484541525420),
  (0x1F497, 0x47524F57494E4720484541525420),
  (0x1F498, 0x48454152542057495448204152524F5720),
  (0x1F499, 0x424C554520484541525420),
  (0x1F49A, 0x475245454E20484541525420),
  (0x1F49B, 0x59454C4C4F5720484541525420),
  (0x1F49C, 0x505552504C4520484541525420),
  (0x1F49D, 0x4845415254205749544820524942424F4E20),
  (0x1F49E, 0x5245564F4C56494E472048454152545320),
  (0x1F49F, 0x4845415254204445434F524154494F4E20),
  (0x1F4A0, 0x4449414D4F4E442053484150452057495448204120444F5420494E5349444520),
  (0x1F4A1, 0x454C454354524943204C494748542042554C4220),
  (0x1F4A2, 0x414E4745522053594D424F4C20),
  (0x1F4A3, 0x424F4D4220),
  (0x1F4A4, 0x534C454550494E472053594D424F4C20),
  (0x1F4A5, 0x434F4C4C4953494F4E2053594D424F4C20),
  (0x1F4A6, 0x53504C415348494E472053574541542053594D424F4C20),
  (0x1F4A7, 0x44524F504C455420)]
def names_462 : List (Nat × Nat) := [
  (0x1F4A8, 0x444153482053594D424F4C20),
  (0x1F4A9, 0x50494C45204F4620504F4F20),
  (0x1F4AA, 0x464C455845442042494345505320),
  (0x1F4AB, 0x44495A5A592053594D424F4C20),
  (0x1F4AC, 0x5350454543482042414C4C4F4F4E20),
  (0x1F4AD, 0x54484F554748542042414C4C4F4F4E20),
  (0x1F4AE, 0x574849544520464C4F57455220),
  (0x1F4AF, 0x48554E4452454420504F494E54532053594D424F4C20),
  (0x1F4B0, 0x4D4F4E45592042414720),
  (0x1F4B1, 0x43555252454E43592045584348414E474520),
  (0x1F4B2, 0x484541565920444F4C4C4152205349474E20),
  (0x1F4B3, 0x435245444954204341524420),
  (0x1F4B4, 0x42414E4B4E4F544520574954482059454E205349474E20),
  (0x1F4B5, 0x42414E4B4E4F5445205749544820444F4C4C4152205349474E20),
  (0x1F4B6, 0x42414E4B4E4F54452057495448204555524F205349474E20),
  (0x1F4B7, 0x42414E4B4E4F5445205749544820504F554E44205349474E20),
  (0x1F4B8, 0x4D4F4E455920574954482057494E475320),
  (0x1F4B9, 0x434841525420574954482055505741524453205452454E4420414E442059454E205349474E20),
  (0x1F4BA, 0x5345415420),
  (0x1F4BB, 0x504552534F4E414C20434F4D505554455220),
  (0x1F4BC, 0x42524945464341534520),
  (0x1F4BD, 0x4D494E494449534320),
  (0x1F4BE, 0x464C4F505059204449534B20),
  (0x1F4BF, 0x4F50544943414C204449534320),
  (0x1F4C0, 0x44564420),
  (0x1F4C1, 0x46494C4520464F4C44455220),
  (0x1F4C2, 0x4F50454E2046494C4520464F4C44455220),
  (0x1F4C3, 0x504147452057495448204355524C20),
  (0x1F4C4, 0x5041474520464143494E4720555020),
  (0x1F4C5, 0x43414C454E44415220),
  (0x1F4C6, 0x544541522D4F46462043414C454E44415220),
  (0x1F4C7, 0x4341524420494E44455820),
  (0x1F4C8, 0x434841525420574954482055505741524453205452454E4420),
  (0x1F4C9, 0x4348415254205749544820444F574E5741524453205452454E4420),
  (0x1F4CA, 0x42415220434841525420),
  (0x1F4CB, 0x434C4950424F41524420),
  (0x1F4CC, 0x5055534850494E20),
  (0x1F4CD, 0x524F554E44205055534850494E20),
  (0x1F4CE, 0x5041504552434C495020),
  (0x1F4CF, 0x53545241494748542052554C455220),
  (0x1F4D0, 0x545249414E47554C41522052554C455220),
  (0x1F4D1, 0x424F4F4B4D41524B205441425320),
  (0x1F4D2, 0x4C454447455220),
  (0x1F4D3, 0x4E4F5445424F4F4B20),
  (0x1F4D4, 0x4E4F5445424F4F4B2057495448204445434F52415449564520434F56455220),
  (0x1F4D5, 0x434C4F53454420424F4F4B20),
  (0x1F4D6, 0x4F50454E20424F4F4B20),
  (0x1F4D7, 0x475245454E20424F4F4B20),
  (0x1F4D8, 0x424C554520424F4F4B20),
  (0x1F4D9, 0x4F52414E474520424F4F4B20),
  (0x1F4DA, 0x424F4F4B5320),
  (0x1F4DB, 0x4E414D4520424144474520),
  (0x1F4DC, 0x5343524F4C4C20),
  (0x1F4DD, 0x4D454D4F20),
  (0x1F4DE, 0x54454C4550484F4E4520524543454956455220),
  (0x1F4DF, 0x504147455220),
  (0x1F4E0, 0x464158204D414348494E4520),
  (0x1F4E1, 0x534154454C4C49544520414E54454E4E4120),
  (0x1F4E2, 0x5055424C49432041444452455353204C4F5544535045414B455220),
  (0x1F4E3, 0x4348454552494E47204D45474150484F4E4520),
  (0x1F4E4, 0x4F5554424F58205452415920),
  (0x1F4E5, 0x494E424F58205452415920),
  (0x1F4E6, 0x5041434B41474520),
  (0x1F4E7, 0x452D4D41494C2053594D424F4C20)]
def names_463 : List (Nat × Nat) := [
  (0x1F4E8, 0x494E434F4D494E4720454E56454C4F504520),
  (0x1F4E9, 0x454E56454C4F5045205749544820444F574E5741524453204152524F572041424F564520),
  (0x1F4EA, 0x434C4F534544204D41494C424F582057495448204C4F574552454420464C414720),
  (0x1F4EB, 0x434C4F534544204D41494C424F5820574954482052414953454420464C414720),
  (0x1F4EC, 0x4F50454E204D41494C424F5820574954482052414953454420464C414720),
  (0x1F4ED, 0x4F50454E204D41494C424F582057495448204C4F574552454420464C414720),
  (0x1F4EE, 0x504F5354424F5820),
  (0x1F4EF, 0x504F5354414C20484F524E20),
  (0x1F4F0, 0x4E455753504150455220),
  (0x1F4F1, 0x4D4F42494C452050484F4E4520),
  (0x1F4F2, 0x4D4F42494C452050484F4E4520574954482052494748545741524453204152524F57204154204C45465420),
  (0x1F4F3, 0x564942524154494F4E204D4F444520),
  (0x1F4F4, 0x4D4F42494C452050484F4E45204F464620),
  (0x1F4F5, 0x4E4F204D4F42494C452050484F4E455320),
  (0x1F4F6, 0x414E54454E4E412057495448204241525320),
  (0x1F4F7, 0x43414D45524120),
  (0x1F4F8, 0x43414D455241205749544820464C41534820),
  (0x1F4F9, 0x564944454F2043414D45524120),
  (0x1F4FA, 0x54454C45564953494F4E20),
  (0x1F4FB, 0x524144494F20),
  (0x1F4FC, 0x564944454F434153534554544520),
  (0x1F4FD, 0x46494C4D2050524F4A4543544F5220),
  (0x1F4FE, 0x504F525441424C452053544552454F20),
  (0x1F4FF, 0x50524159455220424541445320),
  (0x1F500, 0x545749535445442052494748545741524453204152524F575320),
  (0x1F501, 0x434C4F434B57495345205249474854574152445320414E44204C4546545741524453204F50454E20434952434C45204152524F575320),
  (0x1F502, 0x434C4F434B57495345205249474854574152445320414E44204C4546545741524453204F50454E20434952434C45204152524F5753205749544820434952434C4544204F4E45204F5645524C415920),
  (0x1F503, 0x434C4F434B5749534520444F574E574152445320414E442055505741524453204F50454E20434952434C45204152524F575320),
  (0x1F504, 0x414E5449434C4F434B5749534520444F574E574152445320414E442055505741524453204F50454E20434952434C45204152524F575320),
  (0x1F505, 0x4C4F57204252494748544E4553532053594D424F4C20),
  (0x1F506, 0x48494748204252494748544E4553532053594D424F4C20),
  (0x1F507, 0x535045414B455220574954482043414E43454C4C4154494F4E205354524F4B4520),
  (0x1F508, 0x535045414B455220),
  (0x1F509, 0x535045414B45522057495448204F4E4520534F554E44205741564520),
  (0x1F50A, 0x535045414B4552205749544820544852454520534F554E4420574156455320),
  (0x1F50B, 0x4241545445525920),
  (0x1F50C, 0x454C45435452494320504C554720),
  (0x1F50D, 0x4C4546542D504F494E54494E47204D41474E494659494E4720474C41535320),
  (0x1F50E, 0x52494748542D504F494E54494E47204D41474E494659494E4720474C41535320),
  (0x1F50F, 0x4C4F434B205749544820494E4B2050454E20),
  (0x1F510, 0x434C4F534544204C4F434B2057495448204B455920),
  (0x1F511, 0x4B455920),
  (0x1F512, 0x4C4F434B20),
  (0x1F513, 0x4F50454E204C4F434B20),
  (0x1F514, 0x42454C4C20),
  (0x1F515, 0x42454C4C20574954482043414E43454C4C4154494F4E205354524F4B4520),
  (0x1F516, 0x424F4F4B4D41524B20),
  (0x1F517, 0x4C494E4B2053594D424F4C20),
  (0x1F518, 0x524144494F20425554544F4E20),
  (0x1F519, 0x4241434B2057495448204C4546545741524453204152524F572041424F564520),
  (0x1F51A, 0x454E442057495448204C4546545741524453204152524F572041424F564520),
  (0x1F51B, 0x4F4E2057495448204558434C414D4154494F4E204D41524B2057495448204C454654205249474854204152524F572041424F564520),
  (0x1F51C, 0x534F4F4E20574954482052494748545741524453204152524F572041424F564520),
  (0x1F51D, 0x544F5020574954482055505741524453204152524F572041424F564520),
  (0x1F51E, 0x4E4F204F4E4520554E44455220454947485445454E2053594D424F4C20),
  (0x1F51F, 0x4B45594341502054454E20),
  (0x1F520, 0x494E5055542053594D424F4C20464F52204C4154494E204341504954414C204C45545445525320),
  (0x1F521, 0x494E5055542053594D424F4C20464F52204C4154494E20534D414C4C204C45545445525320),
  (0x1F522, 0x494E5055542053594D424F4C20464F52204E554D4245525320),
  (0x1F523, 0x494E5055542053594D424F4C20464F522053594D424F4C5320),
  (0x1F524, 0x494E5055542053594D424F4C20464F52204C4154494E204C45545445525320),
  (0x1F525, 0x4649524520),
  (0x1F526, 0x454C45435452494320544F52434820),
  (0x1F527, 0x5752454E434820)]
def names_464 : List (Nat × Nat) := [
  (0x1F528, 0x48414D4D455220),
  (0x1F529, 0x4E555420414E4420424F4C5420),
  (0x1F52A, 0x484F43484F20),
  (0x1F52B, 0x504953544F4C20),
  (0x1F52C, 0x4D4943524F53434F504520),
  (0x1F52D, 0x54454C4553434F504520),
  (0x1F52E, 0x4352595354414C2042414C4C20),
  (0x1F52F, 0x53495820504F494E54454420535441522057495448204D4944444C4520444F5420),
  (0x1F530, 0x4A4150414E4553452053594D424F4C20464F5220424547494E4E455220),
  (0x1F531, 0x54524944454E5420454D424C454D20),
  (0x1F532, 0x424C41434B2053515541524520425554544F4E20),
  (0x1F533, 0x57484954452053515541524520425554544F4E20),
  (0x1F534, 0x4C415247452052454420434952434C4520),
  (0x1F535, 0x4C4152474520424C554520434952434C4520),
  (0x1F536, 0x4C41524745204F52414E4745204449414D4F4E4420),
  (0x1F537, 0x4C4152474520424C5545204449414D4F4E4420),
  (0x1F538, 0x534D414C4C204F52414E4745204449414D4F4E4420),
  (0x1F539, 0x534D414C4C20424C5545204449414D4F4E4420),
  (0x1F53A, 0x55502D504F494E54494E472052454420545249414E474C4520),
  (0x1F53B, 0x444F574E2D504F494E54494E472052454420545249414E474C4520),
  (0x1F53C, 0x55502D504F494E54494E4720534D414C4C2052454420545249414E474C4520),
  (0x1F53D, 0x444F574E2D504F494E54494E4720534D414C4C2052454420545249414E474C4520),
  (0x1F53E, 0x4C4F57455220524947485420534841444F57454420574849544520434952434C4520),
  (0x1F53F, 0x555050455220524947485420534841444F57454420574849544520434952434C4520),
  (0x1F540, 0x434952434C45442043524F535320504F4D4D454520),
  (0x1F541, 0x43524F535320504F4D4D454520574954482048414C462D434952434C452042454C4F5720),
  (0x1F542, 0x43524F535320504F4D4D454520),
  (0x1F543, 0x4E4F5443484544204C4546542053454D49434952434C45205749544820544852454520444F545320),
  (0x1F544, 0x4E4F54434845442052494748542053454D49434952434C45205749544820544852454520444F545320),
  (0x1F545, 0x53594D424F4C20464F52204D41524B53204348415054455220),
  (0x1F546, 0x5748495445204C4154494E2043524F535320),
  (0x1F547, 0x4845415659204C4154494E2043524F535320),
  (0x1F548, 0x43454C5449432043524F535320),
  (0x1F549, 0x4F4D2053594D424F4C20),
  (0x1F54A, 0x444F5645204F4620504541434520),
  (0x1F54B, 0x4B4141424120),
  (0x1F54C, 0x4D4F5351554520),
  (0x1F54D, 0x53594E41474F47554520),
  (0x1F54E, 0x4D454E4F5241482057495448204E494E45204252414E4348455320),
  (0x1F54F, 0x424F574C204F46204859474945494120),
  (0x1F550, 0x434C4F434B2046414345204F4E45204F434C4F434B20),
  (0x1F551, 0x434C4F434B20464143452054574F204F434C4F434B20),
  (0x1F552, 0x434C4F434B2046414345205448524545204F434C4F434B20),
  (0x1F553, 0x434C4F434B204641434520464F5552204F434C4F434B20),
  (0x1F554, 0x434C4F434B20464143452046495645204F434C4F434B20),
  (0x1F555, 0x434C4F434B204641434520534958204F434C4F434B20),
  (0x1F556, 0x434C4F434B204641434520534556454E204F434C4F434B20),
  (0x1F557, 0x434C4F434B2046414345204549474854204F434C4F434B20),
  (0x1F558, 0x434C4F434B2046414345204E494E45204F434C4F434B20),
  (0x1F559, 0x434C4F434B20464143452054454E204F434C4F434B20),
  (0x1F55A, 0x434C4F434B204641434520454C4556454E204F434C4F434B20),
  (0x1F55B, 0x434C4F434B2046414345205457454C5645204F434C4F434B20),
  (0x1F55C, 0x434C4F434B2046414345204F4E452D54484952545920),
  (0x1F55D, 0x434C4F434B20464143452054574F2D54484952545920),
  (0x1F55E, 0x434C4F434B20464143452054485245452D54484952545920),
  (0x1F55F, 0x434C4F434B204641434520464F55522D54484952545920),
  (0x1F560, 0x434C4F434B204641434520464956452D54484952545920),
  (0x1F561, 0x434C4F434B2046414345205349582D54484952545920),
  (0x1F562, 0x434C4F434B204641434520534556454E2D54484952545920),
  (0x1F563, 0x434C4F434B20464143452045494748542D54484952545920),
  (0x1F564, 0x434C4F434B2046414345204E494E452D54484952545920),
  (0x1F565, 0x434C4F434B20464143452054454E2D54484952545920),
  (0x1F566, 0x434C4F434B204641434520454C4556454E2D54484952545920),
  (0x1F567, 0x434C4F434B2046414345205457454C56452D54484952545920)]
def names_465 : List (Nat × Nat) := [
  (0x1F568, 0x524947485420535045414B455220),
  (0x1F569, 0x524947485420535045414B45522057495448204F4E4520534F554E44205741564520),
  (0x1F56A, 0x524947485420535045414B4552205749544820544852454520534F554E4420574156455320),
  (0x1F56B, 0x42554C4C484F524E20),
  (0x1F56C, 0x42554C4C484F524E205749544820534F554E4420574156455320),
  (0x1F56D, 0x52494E47494E472042454C4C20),
  (0x1F56E, 0x424F4F4B20),
  (0x1F56F, 0x43414E444C4520),
  (0x1F570, 0x4D414E54454C504945434520434C4F434B20),
  (0x1F571, 0x424C41434B20534B554C4C20414E442043524F5353424F4E455320),
  (0x1F572, 0x4E4F2050495241435920),
  (0x1F573, 0x484F4C4520),
  (0x1F574, 0x4D414E20494E20425553494E4553532053554954204C455649544154494E4720),
  (0x1F575, 0x534C45555448204F522053505920),
  (0x1F576, 0x4441524B2053554E474C415353455320),
  (0x1F577, 0x53504944455220),
  (0x1F578, 0x5350494445522057454220),
  (0x1F579, 0x4A4F59535449434B20),
  (0x1F57A, 0x4D414E2044414E43494E4720),
  (0x1F57B, 0x4C4546542048414E442054454C4550484F4E4520524543454956455220),
  (0x1F57C, 0x54454C4550484F4E452052454345495645522057495448205041474520),
  (0x1F57D, 0x52494748542048414E442054454C4550484F4E4520524543454956455220),
  (0x1F57E, 0x574849544520544F554348544F4E452054454C4550484F4E4520),
  (0x1F57F, 0x424C41434B20544F554348544F4E452054454C4550484F4E4520),
  (0x1F580, 0x54454C4550484F4E45204F4E20544F50204F46204D4F44454D20),
  (0x1F581, 0x434C414D5348454C4C204D4F42494C452050484F4E4520),
  (0x1F582, 0x4241434B204F4620454E56454C4F504520),
  (0x1F583, 0x5354414D50454420454E56454C4F504520),
  (0x1F584, 0x454E56454C4F50452057495448204C494748544E494E4720),
  (0x1F585, 0x464C59494E4720454E56454C4F504520),
  (0x1F586, 0x50454E204F564552205354414D50454420454E56454C4F504520),
  (0x1F587, 0x4C494E4B4544205041504552434C49505320),
  (0x1F588, 0x424C41434B205055534850494E20),
  (0x1F589, 0x4C4F574552204C4546542050454E43494C20),
  (0x1F58A, 0x4C4F574552204C4546542042414C4C504F494E542050454E20),
  (0x1F58B, 0x4C4F574552204C45465420464F554E5441494E2050454E20),
  (0x1F58C, 0x4C4F574552204C454654205041494E54425255534820),
  (0x1F58D, 0x4C4F574552204C45465420435241594F4E20),
  (0x1F58E, 0x4C4546542057524954494E472048414E4420),
  (0x1F58F, 0x5455524E4544204F4B2048414E44205349474E20),
  (0x1F590, 0x5241495345442048414E4420574954482046494E474552532053504C4159454420),
  (0x1F591, 0x5245564552534544205241495345442048414E4420574954482046494E474552532053504C4159454420),
  (0x1F592, 0x5245564552534544205448554D4253205550205349474E20),
  (0x1F593, 0x5245564552534544205448554D425320444F574E205349474E20),
  (0x1F594, 0x524556455253454420564943544F52592048414E4420),
  (0x1F595, 0x52455645525345442048414E442057495448204D4944444C452046494E47455220455854454E44454420),
  (0x1F596, 0x5241495345442048414E4420574954482050415254204245545745454E204D4944444C4520414E442052494E472046494E4745525320),
  (0x1F597, 0x574849544520444F574E20504F494E54494E47204C4546542048414E4420494E44455820),
  (0x1F598, 0x5349444557415953205748495445204C45465420504F494E54494E4720494E44455820),
  (0x1F599, 0x534944455741595320574849544520524947485420504F494E54494E4720494E44455820),
  (0x1F59A, 0x534944455741595320424C41434B204C45465420504F494E54494E4720494E44455820),
  (0x1F59B, 0x534944455741595320424C41434B20524947485420504F494E54494E4720494E44455820),
  (0x1F59C, 0x424C41434B204C45465420504F494E54494E47204241434B48414E4420494E44455820),
  (0x1F59D, 0x424C41434B20524947485420504F494E54494E47204241434B48414E4420494E44455820),
  (0x1F59E, 0x534944455741595320574849544520555020504F494E54494E4720494E44455820),
  (0x1F59F, 0x534944455741595320574849544520444F574E20504F494E54494E4720494E44455820),
  (0x1F5A0, 0x534944455741595320424C41434B20555020504F494E54494E4720494E44455820),
  (0x1F5A1, 0x534944455741595320424C41434B20444F574E20504F494E54494E4720494E44455820),
  (0x1F5A2, 0x424C41434B20555020504F494E54494E47204241434B48414E4420494E44455820),
  (0x1F5A3, 0x424C41434B20444F574E20504F494E54494E47204241434B48414E4420494E44455820),
  (0x1F5A4, 0x424C41434B20484541525420),
  (0x1F5A5, 0x4445534B544F5020434F4D505554455220),
  (0x1F5A6, 0x4B4559424F41524420414E44204D4F55534520),
  (0x1F5A7, 0x5448524545204E4554574F524B454420434F4D50555445525320)]
def names_466 : List (Nat × Nat) := [
  (0x1F5A8, 0x5052494E54455220),
  (0x1F5A9, 0x504F434B45542043414C43554C41544F5220),
  (0x1F5AA, 0x424C41434B2048415244205348454C4C20464C4F505059204449534B20),
  (0x1F5AB, 0x57484954452048415244205348454C4C20464C4F505059204449534B20),
  (0x1F5AC, 0x534F4654205348454C4C20464C4F505059204449534B20),
  (0x1F5AD, 0x544150452043415254524944474520),
  (0x1F5AE, 0x5749524544204B4559424F41524420),
  (0x1F5AF, 0x4F4E4520425554544F4E204D4F55534520),
  (0x1F5B0, 0x54574F20425554544F4E204D4F55534520),
  (0x1F5B1, 0x544852454520425554544F4E204D4F55534520),
  (0x1F5B2, 0x545241434B42414C4C20),
  (0x1F5B3, 0x4F4C4420504552534F4E414C20434F4D505554455220),
  (0x1F5B4, 0x48415244204449534B20),
  (0x1F5B5, 0x53435245454E20),
  (0x1F5B6, 0x5052494E5445522049434F4E20),
  (0x1F5B7, 0x4641582049434F4E20),
  (0x1F5B8, 0x4F50544943414C20444953432049434F4E20),
  (0x1F5B9, 0x444F43554D454E542057495448205445585420),
  (0x1F5BA, 0x444F43554D454E542057495448205445585420414E44205049435455524520),
  (0x1F5BB, 0x444F43554D454E542057495448205049435455524520),
  (0x1F5BC, 0x4652414D452057495448205049435455524520),
  (0x1F5BD, 0x4652414D4520574954482054494C455320),
  (0x1F5BE, 0x4652414D45205749544820414E205820),
  (0x1F5BF, 0x424C41434B20464F4C44455220),
  (0x1F5C0, 0x464F4C44455220),
  (0x1F5C1, 0x4F50454E20464F4C44455220),
  (0x1F5C2, 0x4341524420494E44455820444956494445525320),
  (0x1F5C3, 0x434152442046494C4520424F5820),
  (0x1F5C4, 0x46494C4520434142494E455420),
  (0x1F5C5, 0x454D505459204E4F544520),
  (0x1F5C6, 0x454D505459204E4F5445205041474520),
  (0x1F5C7, 0x454D505459204E4F54452050414420),
  (0x1F5C8, 0x4E4F544520),
  (0x1F5C9, 0x4E4F5445205041474520),
  (0x1F5CA, 0x4E4F54452050414420),
  (0x1F5CB, 0x454D50545920444F43554D454E5420),
  (0x1F5CC, 0x454D505459205041474520),
  (0x1F5CD, 0x454D50545920504147455320),
  (0x1F5CE, 0x444F43554D454E5420),
  (0x1F5CF, 0x5041474520),
  (0x1F5D0, 0x504147455320),
  (0x1F5D1, 0x57415354454241534B455420),
  (0x1F5D2, 0x53504952414C204E4F54452050414420),
  (0x1F5D3, 0x53504952414C2043414C454E4441522050414420),
  (0x1F5D4, 0x4445534B544F502057494E444F5720),
  (0x1F5D5, 0x4D494E494D495A4520),
  (0x1F5D6, 0x4D4158494D495A4520),
  (0x1F5D7, 0x4F5645524C415020),
  (0x1F5D8, 0x434C4F434B5749534520524947485420414E44204C4546542053454D49434952434C45204152524F575320),
  (0x1F5D9, 0x43414E43454C4C4154494F4E205820),
  (0x1F5DA, 0x494E43524541534520464F4E542053495A452053594D424F4C20),
  (0x1F5DB, 0x444543524541534520464F4E542053495A452053594D424F4C20),
  (0x1F5DC, 0x434F4D5052455353494F4E20),
  (0x1F5DD, 0x4F4C44204B455920),
  (0x1F5DE, 0x524F4C4C45442D5550204E455753504150455220),
  (0x1F5DF, 0x50414745205749544820434952434C4544205445585420),
  (0x1F5E0, 0x53544F434B20434841525420),
  (0x1F5E1, 0x444147474552204B4E49464520),
  (0x1F5E2, 0x4C49505320),
  (0x1F5E3, 0x535045414B494E47204845414420494E2053494C484F554554544520),
  (0x1F5E4, 0x544852454520524159532041424F564520),
  (0x1F5E5, 0x544852454520524159532042454C4F5720),
  (0x1F5E6, 0x54485245452052415953204C45465420),
  (0x1F5E7, 0x5448524545205241595320524947485420)]
def names_467 : List (Nat × Nat) := [
  (0x1F5E8, 0x4C4546542053504545434820425542424C4520),
  (0x1F5E9, 0x52494748542053504545434820425542424C4520),
  (0x1F5EA, 0x54574F2053504545434820425542424C455320),
  (0x1F5EB, 0x54485245452053504545434820425542424C455320),
  (0x1F5EC, 0x4C4546542054484F5547485420425542424C4520),
  (0x1F5ED, 0x52494748542054484F5547485420425542424C4520),
  (0x1F5EE, 0x4C45465420414E47455220425542424C4520),
  (0x1F5EF, 0x524947485420414E47455220425542424C4520),
  (0x1F5F0, 0x4D4F4F4420425542424C4520),
  (0x1F5F1, 0x4C494748544E494E47204D4F4F4420425542424C4520),
  (0x1F5F2, 0x4C494748544E494E47204D4F4F4420),
  (0x1F5F3, 0x42414C4C4F5420424F5820574954482042414C4C4F5420),
  (0x1F5F4, 0x42414C4C4F5420534352495054205820),
  (0x1F5F5, 0x42414C4C4F5420424F58205749544820534352495054205820),
  (0x1F5F6, 0x42414C4C4F5420424F4C4420534352495054205820),
  (0x1F5F7, 0x42414C4C4F5420424F58205749544820424F4C4420534352495054205820),
  (0x1F5F8, 0x4C4947485420434845434B204D41524B20),
  (0x1F5F9, 0x42414C4C4F5420424F58205749544820424F4C4420434845434B20),
  (0x1F5FA, 0x574F524C44204D415020),
  (0x1F5FB, 0x4D4F554E542046554A4920),
  (0x1F5FC, 0x544F4B594F20544F57455220),
  (0x1F5FD, 0x535441545545204F46204C49424552545920),
  (0x1F5FE, 0x53494C484F5545545445204F46204A4150414E20),
  (0x1F5FF, 0x4D4F59414920),
  (0x1F600, 0x4752494E4E494E47204641434520),
  (0x1F601, 0x4752494E4E494E472046414345205749544820534D494C494E47204559455320),
  (0x1F602, 0x464143452057495448205445415253204F46204A4F5920),
  (0x1F603, 0x534D494C494E4720464143452057495448204F50454E204D4F55544820),
  (0x1F604, 0x534D494C494E4720464143452057495448204F50454E204D4F55544820414E4420534D494C494E47204559455320),
  (0x1F605, 0x534D494C494E4720464143452057495448204F50454E204D4F55544820414E4420434F4C4420535745415420),
  (0x1F606, 0x534D494C494E4720464143452057495448204F50454E204D4F55544820414E442054494748544C592D434C4F534544204559455320),
  (0x1F607, 0x534D494C494E47204641434520574954482048414C4F20),
  (0x1F608, 0x534D494C494E472046414345205749544820484F524E5320),
  (0x1F609, 0x57494E4B494E47204641434520),
  (0x1F60A, 0x534D494C494E472046414345205749544820534D494C494E47204559455320),
  (0x1F60B, 0x46414345205341564F5552494E472044454C4943494F555320464F4F4420),
  (0x1F60C, 0x52454C4945564544204641434520),
  (0x1F60D, 0x534D494C494E47204641434520574954482048454152542D534841504544204559455320),
  (0x1F60E, 0x534D494C494E47204641434520574954482053554E474C415353455320),
  (0x1F60F, 0x534D49524B494E47204641434520),
  (0x1F610, 0x4E45555452414C204641434520),
  (0x1F611, 0x45585052455353494F4E4C455353204641434520),
  (0x1F612, 0x554E414D55534544204641434520),
  (0x1F613, 0x46414345205749544820434F4C4420535745415420),
  (0x1F614, 0x50454E53495645204641434520),
  (0x1F615, 0x434F4E4655534544204641434520),
  (0x1F616, 0x434F4E464F554E444544204641434520),
  (0x1F617, 0x4B495353494E47204641434520),
  (0x1F618, 0x46414345205448524F57494E472041204B49535320),
  (0x1F619, 0x4B495353494E472046414345205749544820534D494C494E47204559455320),
  (0x1F61A, 0x4B495353494E472046414345205749544820434C4F534544204559455320),
  (0x1F61B, 0x46414345205749544820535455434B2D4F555420544F4E47554520),
  (0x1F61C, 0x46414345205749544820535455434B2D4F555420544F4E47554520414E442057494E4B494E472045594520),
  (0x1F61D, 0x46414345205749544820535455434B2D4F555420544F4E47554520414E442054494748544C592D434C4F534544204559455320),
  (0x1F61E, 0x4449534150504F494E544544204641434520),
  (0x1F61F, 0x574F5252494544204641434520),
  (0x1F620, 0x414E475259204641434520),
  (0x1F621, 0x504F5554494E47204641434520),
  (0x1F622, 0x435259494E47204641434520),
  (0x1F623, 0x5045525345564552494E47204641434520),
  (0x1F624, 0x464143452057495448204C4F4F4B204F4620545249554D504820),
  (0x1F625, 0x4449534150504F494E544544204255542052454C4945564544204641434520),
  (0x1F626, 0x46524F574E494E4720464143452057495448204F50454E204D4F55544820),
  (0x1F627, 0x414E47554953484544204641434520)]
def names_468 : List (Nat × Nat) := [
  (0x1F628, 0x4645415246554C204641434520),
  (0x1F629, 0x5745415259204641434520),
  (0x1F62A, 0x534C45455059204641434520),
  (0x1F62B, 0x5449524544204641434520),
  (0x1F62C, 0x4752494D4143494E47204641434520),
  (0x1F62D, 0x4C4F55444C5920435259494E47204641434520),
  (0x1F62E, 0x464143452057495448204F50454E204D4F55544820),
  (0x1F62F, 0x485553484544204641434520),
  (0x1F630, 0x464143452057495448204F50454E204D4F55544820414E4420434F4C4420535745415420),
  (0x1F631, 0x464143452053435245414D494E4720494E204645415220),
  (0x1F632, 0x4153544F4E4953484544204641434520),
  (0x1F633, 0x464C5553484544204641434520),
  (0x1F634, 0x534C454550494E47204641434520),
  (0x1F635, 0x44495A5A59204641434520),
  (0x1F636, 0x4641434520574954484F5554204D4F55544820),
  (0x1F637, 0x464143452057495448204D45444943414C204D41534B20),
  (0x1F638, 0x4752494E4E494E47204341542046414345205749544820534D494C494E47204559455320),
  (0x1F639, 0x43415420464143452057495448205445415253204F46204A4F5920),
  (0x1F63A, 0x534D494C494E472043415420464143452057495448204F50454E204D4F55544820),
  (0x1F63B, 0x534D494C494E4720434154204641434520574954482048454152542D534841504544204559455320),
  (0x1F63C, 0x434154204641434520574954482057525920534D494C4520),
  (0x1F63D, 0x4B495353494E47204341542046414345205749544820434C4F534544204559455320),
  (0x1F63E, 0x504F5554494E4720434154204641434520),
  (0x1F63F, 0x435259494E4720434154204641434520),
  (0x1F640, 0x574541525920434154204641434520),
  (0x1F641, 0x534C494748544C592046524F574E494E47204641434520),
  (0x1F642, 0x534C494748544C5920534D494C494E47204641434520),
  (0x1F643, 0x5550534944452D444F574E204641434520),
  (0x1F644, 0x46414345205749544820524F4C4C494E47204559455320),
  (0x1F645, 0x464143452057495448204E4F20474F4F44204745535455524520),
  (0x1F646, 0x464143452057495448204F4B204745535455524520),
  (0x1F647, 0x504552534F4E20424F57494E4720444545504C5920),
  (0x1F648, 0x5345452D4E4F2D4556494C204D4F4E4B455920),
  (0x1F649, 0x484541522D4E4F2D4556494C204D4F4E4B455920),
  (0x1F64A, 0x535045414B2D4E4F2D4556494C204D4F4E4B455920),
  (0x1F64B, 0x484150505920504552534F4E2052414953494E47204F4E452048414E4420),
  (0x1F64C, 0x504552534F4E2052414953494E4720424F54482048414E445320494E2043454C4542524154494F4E20),
  (0x1F64D, 0x504552534F4E2046524F574E494E4720),
  (0x1F64E, 0x504552534F4E205749544820504F5554494E47204641434520),
  (0x1F64F, 0x504552534F4E205749544820464F4C4445442048414E445320),
  (0x1F650, 0x4E4F525448205745535420504F494E54494E47204C45414620),
  (0x1F651, 0x534F555448205745535420504F494E54494E47204C45414620),
  (0x1F652, 0x4E4F525448204541535420504F494E54494E47204C45414620),
  (0x1F653, 0x534F555448204541535420504F494E54494E47204C45414620),
  (0x1F654, 0x5455524E4544204E4F525448205745535420504F494E54494E47204C45414620),
  (0x1F655, 0x5455524E454420534F555448205745535420504F494E54494E47204C45414620),
  (0x1F656, 0x5455524E4544204E4F525448204541535420504F494E54494E47204C45414620),
  (0x1F657, 0x5455524E454420534F555448204541535420504F494E54494E47204C45414620),
  (0x1F658, 0x4E4F525448205745535420504F494E54494E472056494E45204C45414620),
  (0x1F659, 0x534F555448205745535420504F494E54494E472056494E45204C45414620),
  (0x1F65A, 0x4E4F525448204541535420504F494E54494E472056494E45204C45414620),
  (0x1F65B, 0x534F555448204541535420504F494E54494E472056494E45204C45414620),
  (0x1F65C, 0x4845415659204E4F525448205745535420504F494E54494E472056494E45204C45414620),
  (0x1F65D, 0x484541565920534F555448205745535420504F494E54494E472056494E45204C45414620),
  (0x1F65E, 0x4845415659204E4F525448204541535420504F494E54494E472056494E45204C45414620),
  (0x1F65F, 0x484541565920534F555448204541535420504F494E54494E472056494E45204C45414620),
  (0x1F660, 0x4E4F525448205745535420504F494E54494E472042554420),
  (0x1F661, 0x534F555448205745535420504F494E54494E472042554420),
  (0x1F662, 0x4E4F525448204541535420504F494E54494E472042554420),
  (0x1F663, 0x534F555448204541535420504F494E54494E472042554420),
  (0x1F664, 0x4845415659204E4F525448205745535420504F494E54494E472042554420),
  (0x1F665, 0x484541565920534F555448205745535420504F494E54494E472042554420),
  (0x1F666, 0x4845415659204E4F525448204541535420504F494E54494E472042554420),
  (0x1F667, 0x484541565920534F555448204541535420504F494E54494E472042554420)]
def names_469 : List (Nat × Nat) := [
  (0x1F668, 0x484F4C4C4F57205155494C5420535155415245204F524E414D454E5420),
  (0x1F669, 0x484F4C4C4F57205155494C5420535155415245204F524E414D454E5420494E20424C41434B2053515541524520),
  (0x1F66A, 0x534F4C4944205155494C5420535155415245204F524E414D454E5420),
  (0x1F66B, 0x534F4C4944205155494C5420535155415245204F524E414D454E5420494E20424C41434B2053515541524520),
  (0x1F66C, 0x4C454654574152445320524F434B455420),
  (0x1F66D, 0x5550574152445320524F434B455420),
  (0x1F66E, 0x5249474854574152445320524F434B455420),
  (0x1F66F, 0x444F574E574152445320524F434B455420),
  (0x1F670, 0x534352495054204C49474154555245204554204F524E414D454E5420),
  (0x1F671, 0x484541565920534352495054204C49474154555245204554204F524E414D454E5420),
  (0x1F672, 0x4C49474154555245204F50454E204554204F524E414D454E5420),
  (0x1F673, 0x4845415659204C49474154555245204F50454E204554204F524E414D454E5420),
  (0x1F674, 0x484541565920414D50455253414E44204F524E414D454E5420),
  (0x1F675, 0x535741534820414D50455253414E44204F524E414D454E5420),
  (0x1F676, 0x53414E532D534552494620484541565920444F55424C45205455524E454420434F4D4D412051554F544154494F4E204D41524B204F524E414D454E5420),
  (0x1F677, 0x53414E532D534552494620484541565920444F55424C4520434F4D4D412051554F544154494F4E204D41524B204F524E414D454E5420),
  (0x1F678, 0x53414E532D5345524946204845415659204C4F5720444F55424C4520434F4D4D412051554F544154494F4E204D41524B204F524E414D454E5420),
  (0x1F679, 0x484541565920494E544552524F42414E47204F524E414D454E5420),
  (0x1F67A, 0x53414E532D534552494620494E544552524F42414E47204F524E414D454E5420),
  (0x1F67B, 0x48454156592053414E532D534552494620494E544552524F42414E47204F524E414D454E5420),
  (0x1F67C, 0x5645525920484541565920534F4C4944555320),
  (0x1F67D, 0x56455259204845415659205245564552534520534F4C4944555320),
  (0x1F67E, 0x434845434B455220424F41524420),
  (0x1F67F, 0x5245564552534520434845434B455220424F41524420),
  (0x1F680, 0x524F434B455420),
  (0x1F681, 0x48454C49434F5054455220),
  (0x1F682, 0x535445414D204C4F434F4D4F5449564520),
  (0x1F683, 0x5241494C5741592043415220),
  (0x1F684, 0x484947482D535045454420545241494E20),
  (0x1F685, 0x484947482D535045454420545241494E20574954482042554C4C4554204E4F534520),
  (0x1F686, 0x545241494E20),
  (0x1F687, 0x4D4554524F20),
  (0x1F688, 0x4C49474854205241494C20),
  (0x1F689, 0x53544154494F4E20),
  (0x1F68A, 0x5452414D20),
  (0x1F68B, 0x5452414D2043415220),
  (0x1F68C, 0x42555320),
  (0x1F68D, 0x4F4E434F4D494E472042555320),
  (0x1F68E, 0x54524F4C4C455942555320),
  (0x1F68F, 0x4255532053544F5020),
  (0x1F690, 0x4D494E4942555320),
  (0x1F691, 0x414D42554C414E434520),
  (0x1F692, 0x4649524520454E47494E4520),
  (0x1F693, 0x504F4C4943452043415220),
  (0x1F694, 0x4F4E434F4D494E4720504F4C4943452043415220),
  (0x1F695, 0x5441584920),
  (0x1F696, 0x4F4E434F4D494E47205441584920),
  (0x1F697, 0x4155544F4D4F42494C4520),
  (0x1F698, 0x4F4E434F4D494E47204155544F4D4F42494C4520),
  (0x1F699, 0x52454352454154494F4E414C2056454849434C4520),
  (0x1F69A, 0x44454C495645525920545255434B20),
  (0x1F69B, 0x4152544943554C41544544204C4F52525920),
  (0x1F69C, 0x54524143544F5220),
  (0x1F69D, 0x4D4F4E4F5241494C20),
  (0x1F69E, 0x4D4F554E5441494E205241494C57415920),
  (0x1F69F, 0x53555350454E53494F4E205241494C57415920),
  (0x1F6A0, 0x4D4F554E5441494E204341424C4557415920),
  (0x1F6A1, 0x41455249414C205452414D57415920),
  (0x1F6A2, 0x5348495020),
  (0x1F6A3, 0x524F57424F415420),
  (0x1F6A4, 0x5350454544424F415420),
  (0x1F6A5, 0x484F52495A4F4E54414C2054524146464943204C4947485420),
  (0x1F6A6, 0x564552544943414C2054524146464943204C4947485420),
  (0x1F6A7, 0x434F4E535452554354494F4E205349474E20)]
def names_470 : List (Nat × Nat) := [
  (0x1F6A8, 0x504F4C4943452043415253205245564F4C56494E47204C4947485420),
  (0x1F6A9, 0x545249414E47554C415220464C4147204F4E20504F535420),
  (0x1F6AA, 0x444F4F5220),
  (0x1F6AB, 0x4E4F20454E545259205349474E20),
  (0x1F6AC, 0x534D4F4B494E472053594D424F4C20),
  (0x1F6AD, 0x4E4F20534D4F4B494E472053594D424F4C20),
  (0x1F6AE, 0x505554204C495454455220494E2049545320504C4143452053594D424F4C20),
  (0x1F6AF, 0x444F204E4F54204C49545445522053594D424F4C20),
  (0x1F6B0, 0x504F5441424C452057415445522053594D424F4C20),
  (0x1F6B1, 0x4E4F4E2D504F5441424C452057415445522053594D424F4C20),
  (0x1F6B2, 0x42494359434C4520),
  (0x1F6B3, 0x4E4F2042494359434C455320),
  (0x1F6B4, 0x42494359434C49535420),
  (0x1F6B5, 0x4D4F554E5441494E2042494359434C49535420),
  (0x1F6B6, 0x5045444553545249414E20),
  (0x1F6B7, 0x4E4F205045444553545249414E5320),
  (0x1F6B8, 0x4348494C4452454E2043524F5353494E4720),
  (0x1F6B9, 0x4D454E532053594D424F4C20),
  (0x1F6BA, 0x574F4D454E532053594D424F4C20),
  (0x1F6BB, 0x52455354524F4F4D20),
  (0x1F6BC, 0x424142592053594D424F4C20),
  (0x1F6BD, 0x544F494C455420),
  (0x1F6BE, 0x574154455220434C4F53455420),
  (0x1F6BF, 0x53484F57455220),
  (0x1F6C0, 0x4241544820),
  (0x1F6C1, 0x4241544854554220),
  (0x1F6C2, 0x50415353504F525420434F4E54524F4C20),
  (0x1F6C3, 0x435553544F4D5320),
  (0x1F6C4, 0x4241474741474520434C41494D20),
  (0x1F6C5, 0x4C454654204C55474741474520),
  (0x1F6C6, 0x545249414E474C45205749544820524F554E44454420434F524E45525320),
  (0x1F6C7, 0x50524F48494249544544205349474E20),
  (0x1F6C8, 0x434952434C454420494E464F524D4154494F4E20534F5552434520),
  (0x1F6C9, 0x424F59532053594D424F4C20),
  (0x1F6CA, 0x4749524C532053594D424F4C20),
  (0x1F6CB, 0x434F55434820414E44204C414D5020),
  (0x1F6CC, 0x534C454550494E47204143434F4D4D4F444154494F4E20),
  (0x1F6CD, 0x53484F5050494E47204241475320),
  (0x1F6CE, 0x42454C4C484F502042454C4C20),
  (0x1F6CF, 0x42454420),
  (0x1F6D0, 0x504C414345204F4620574F525348495020),
  (0x1F6D1, 0x4F435441474F4E414C205349474E20),
  (0x1F6D2, 0x53484F5050494E472054524F4C4C455920),
  (0x1F6D3, 0x535455504120),
  (0x1F6D4, 0x5041474F444120),
  (0x1F6E0, 0x48414D4D455220414E44205752454E434820),
  (0x1F6E1, 0x534849454C4420),
  (0x1F6E2, 0x4F494C204452554D20),
  (0x1F6E3, 0x4D4F544F5257415920),
  (0x1F6E4, 0x5241494C57415920545241434B20),
  (0x1F6E5, 0x4D4F544F5220424F415420),
  (0x1F6E6, 0x55502D504F494E54494E47204D494C495441525920414952504C414E4520),
  (0x1F6E7, 0x55502D504F494E54494E4720414952504C414E4520),
  (0x1F6E8, 0x55502D504F494E54494E4720534D414C4C20414952504C414E4520),
  (0x1F6E9, 0x534D414C4C20414952504C414E4520),
  (0x1F6EA, 0x4E4F525448454153542D504F494E54494E4720414952504C414E4520),
  (0x1F6EB, 0x414952504C414E452044455041525455524520),
  (0x1F6EC, 0x414952504C414E45204152524956494E4720),
  (0x1F6F0, 0x534154454C4C49544520),
  (0x1F6F1, 0x4F4E434F4D494E47204649524520454E47494E4520),
  (0x1F6F2, 0x44494553454C204C4F434F4D4F5449564520),
  (0x1F6F3, 0x50415353454E474552205348495020),
  (0x1F6F4, 0x53434F4F54455220),
  (0x1F6F5, 0x4D4F544F522053434F4F54455220)]
def names_471 : List (Nat × Nat) := [
  (0x1F6F6, 0x43414E4F4520),
  (0x1F6F7, 0x534C454420),
  (0x1F6F8, 0x464C59494E472053415543455220),
  (0x1F700, 0x414C4348454D4943414C2053594D424F4C20464F52205155494E54455353454E434520),
  (0x1F701, 0x414C4348454D4943414C2053594D424F4C20464F522041495220),
  (0x1F702, 0x414C4348454D4943414C2053594D424F4C20464F52204649524520),
  (0x1F703, 0x414C4348454D4943414C2053594D424F4C20464F5220454152544820),
  (0x1F704, 0x414C4348454D4943414C2053594D424F4C20464F5220574154455220),
  (0x1F705, 0x414C4348454D4943414C2053594D424F4C20464F522041515541464F5254495320),
  (0x1F706, 0x414C4348454D4943414C2053594D424F4C20464F52204151554120524547494120),
  (0x1F707, 0x414C4348454D4943414C2053594D424F4C20464F5220415155412052454749412D3220),
  (0x1F708, 0x414C4348454D4943414C2053594D424F4C20464F52204151554120564954414520),
  (0x1F709, 0x414C4348454D4943414C2053594D424F4C20464F5220415155412056495441452D3220),
  (0x1F70A, 0x414C4348454D4943414C2053594D424F4C20464F522056494E4547415220),
  (0x1F70B, 0x414C4348454D4943414C2053594D424F4C20464F522056494E454741522D3220),
  (0x1F70C, 0x414C4348454D4943414C2053594D424F4C20464F522056494E454741522D3320),
  (0x1F70D, 0x414C4348454D4943414C2053594D424F4C20464F522053554C46555220),
  (0x1F70E, 0x414C4348454D4943414C2053594D424F4C20464F52205048494C4F534F50484552532053554C46555220),
  (0x1F70F, 0x414C4348454D4943414C2053594D424F4C20464F5220424C41434B2053554C46555220),
  (0x1F710, 0x414C4348454D4943414C2053594D424F4C20464F52204D455243555259205355424C494D41544520),
  (0x1F711, 0x414C4348454D4943414C2053594D424F4C20464F52204D455243555259205355424C494D4154452D3220),
  (0x1F712, 0x414C4348454D4943414C2053594D424F4C20464F52204D455243555259205355424C494D4154452D3320),
  (0x1F713, 0x414C4348454D4943414C2053594D424F4C20464F522043494E4E4142415220),
  (0x1F714, 0x414C4348454D4943414C2053594D424F4C20464F522053414C5420),
  (0x1F715, 0x414C4348454D4943414C2053594D424F4C20464F52204E4954524520),
  (0x1F716, 0x414C4348454D4943414C2053594D424F4C20464F522056495452494F4C20),
  (0x1F717, 0x414C4348454D4943414C2053594D424F4C20464F522056495452494F4C2D3220),
  (0x1F718, 0x414C4348454D4943414C2053594D424F4C20464F5220524F434B2053414C5420),
  (0x1F719, 0x414C4348454D4943414C2053594D424F4C20464F5220524F434B2053414C542D3220),
  (0x1F71A, 0x414C4348454D4943414C2053594D424F4C20464F5220474F4C4420),
  (0x1F71B, 0x414C4348454D4943414C2053594D424F4C20464F522053494C56455220),
  (0x1F71C, 0x414C4348454D4943414C2053594D424F4C20464F522049524F4E204F524520),
  (0x1F71D, 0x414C4348454D4943414C2053594D424F4C20464F522049524F4E204F52452D3220),
  (0x1F71E, 0x414C4348454D4943414C2053594D424F4C20464F522043524F435553204F462049524F4E20),
  (0x1F71F, 0x414C4348454D4943414C2053594D424F4C20464F5220524547554C5553204F462049524F4E20),
  (0x1F720, 0x414C4348454D4943414C2053594D424F4C20464F5220434F50504552204F524520),
  (0x1F721, 0x414C4348454D4943414C2053594D424F4C20464F522049524F4E2D434F50504552204F524520),
  (0x1F722, 0x414C4348454D4943414C2053594D424F4C20464F52205355424C494D415445204F4620434F5050455220),
  (0x1F723, 0x414C4348454D4943414C2053594D424F4C20464F522043524F435553204F4620434F5050455220),
  (0x1F724, 0x414C4348454D4943414C2053594D424F4C20464F522043524F435553204F4620434F505045522D3220),
  (0x1F725, 0x414C4348454D4943414C2053594D424F4C20464F5220434F5050455220414E54494D4F4E4941544520),
  (0x1F726, 0x414C4348454D4943414C2053594D424F4C20464F522053414C54204F4620434F5050455220414E54494D4F4E4941544520),
  (0x1F727, 0x414C4348454D4943414C2053594D424F4C20464F52205355424C494D415445204F462053414C54204F4620434F5050455220),
  (0x1F728, 0x414C4348454D4943414C2053594D424F4C20464F522056455244494752495320),
  (0x1F729, 0x414C4348454D4943414C2053594D424F4C20464F522054494E204F524520),
  (0x1F72A, 0x414C4348454D4943414C2053594D424F4C20464F52204C454144204F524520),
  (0x1F72B, 0x414C4348454D4943414C2053594D424F4C20464F5220414E54494D4F4E59204F524520),
  (0x1F72C, 0x414C4348454D4943414C2053594D424F4C20464F52205355424C494D415445204F4620414E54494D4F4E5920),
  (0x1F72D, 0x414C4348454D4943414C2053594D424F4C20464F522053414C54204F4620414E54494D4F4E5920),
  (0x1F72E, 0x414C4348454D4943414C2053594D424F4C20464F52205355424C494D415445204F462053414C54204F4620414E54494D4F4E5920),
  (0x1F72F, 0x414C4348454D4943414C2053594D424F4C20464F522056494E45474152204F4620414E54494D4F4E5920),
  (0x1F730, 0x414C4348454D4943414C2053594D424F4C20464F5220524547554C5553204F4620414E54494D4F4E5920),
  (0x1F731, 0x414C4348454D4943414C2053594D424F4C20464F5220524547554C5553204F4620414E54494D4F4E592D3220),
  (0x1F732, 0x414C4348454D4943414C2053594D424F4C20464F5220524547554C555320),
  (0x1F733, 0x414C4348454D4943414C2053594D424F4C20464F5220524547554C55532D3220),
  (0x1F734, 0x414C4348454D4943414C2053594D424F4C20464F5220524547554C55532D3320),
  (0x1F735, 0x414C4348454D4943414C2053594D424F4C20464F5220524547554C55532D3420),
  (0x1F736, 0x414C4348454D4943414C2053594D424F4C20464F5220414C4B414C4920),
  (0x1F737, 0x414C4348454D4943414C2053594D424F4C20464F5220414C4B414C492D3220),
  (0x1F738, 0x414C4348454D4943414C2053594D424F4C20464F52204D415243415349544520),
  (0x1F739, 0x414C4348454D4943414C2053594D424F4C20464F522053414C2D414D4D4F4E49414320),
  (0x1F73A, 0x414C4348454D4943414C2053594D424F4C20464F5220415253454E494320),
  (0x1F73B, 0x414C4348454D4943414C2053594D424F4C20464F52205245414C47415220),
  (0x1F73C, 0x414C4348454D4943414C2053594D424F4C20464F52205245414C4741522D3220)]
def names_472 : List (Nat × Nat) := [
  (0x1F73D, 0x414C4348454D4943414C2053594D424F4C20464F5220415552495049474D454E5420),
  (0x1F73E, 0x414C4348454D4943414C2053594D424F4C20464F52204249534D555448204F524520),
  (0x1F73F, 0x414C4348454D4943414C2053594D424F4C20464F522054415254415220),
  (0x1F740, 0x414C4348454D4943414C2053594D424F4C20464F52205441525441522D3220),
  (0x1F741, 0x414C4348454D4943414C2053594D424F4C20464F5220515549434B204C494D4520),
  (0x1F742, 0x414C4348454D4943414C2053594D424F4C20464F5220424F52415820),
  (0x1F743, 0x414C4348454D4943414C2053594D424F4C20464F5220424F5241582D3220),
  (0x1F744, 0x414C4348454D4943414C2053594D424F4C20464F5220424F5241582D3320),
  (0x1F745, 0x414C4348454D4943414C2053594D424F4C20464F5220414C554D20),
  (0x1F746, 0x414C4348454D4943414C2053594D424F4C20464F52204F494C20),
  (0x1F747, 0x414C4348454D4943414C2053594D424F4C20464F522053504952495420),
  (0x1F748, 0x414C4348454D4943414C2053594D424F4C20464F522054494E435455524520),
  (0x1F749, 0x414C4348454D4943414C2053594D424F4C20464F522047554D20),
  (0x1F74A, 0x414C4348454D4943414C2053594D424F4C20464F522057415820),
  (0x1F74B, 0x414C4348454D4943414C2053594D424F4C20464F5220504F5744455220),
  (0x1F74C, 0x414C4348454D4943414C2053594D424F4C20464F522043414C5820),
  (0x1F74D, 0x414C4348454D4943414C2053594D424F4C20464F5220545554545920),
  (0x1F74E, 0x414C4348454D4943414C2053594D424F4C20464F52204341505554204D4F525455554D20),
  (0x1F74F, 0x414C4348454D4943414C2053594D424F4C20464F522053434550544552204F46204A4F564520),
  (0x1F750, 0x414C4348454D4943414C2053594D424F4C20464F5220434144554345555320),
  (0x1F751, 0x414C4348454D4943414C2053594D424F4C20464F522054524944454E5420),
  (0x1F752, 0x414C4348454D4943414C2053594D424F4C20464F5220535441525245442054524944454E5420),
  (0x1F753, 0x414C4348454D4943414C2053594D424F4C20464F52204C4F444553544F4E4520),
  (0x1F754, 0x414C4348454D4943414C2053594D424F4C20464F5220534F415020),
  (0x1F755, 0x414C4348454D4943414C2053594D424F4C20464F52205552494E4520),
  (0x1F756, 0x414C4348454D4943414C2053594D424F4C20464F5220484F5253452044554E4720),
  (0x1F757, 0x414C4348454D4943414C2053594D424F4C20464F5220415348455320),
  (0x1F758, 0x414C4348454D4943414C2053594D424F4C20464F5220504F5420415348455320),
  (0x1F759, 0x414C4348454D4943414C2053594D424F4C20464F5220425249434B20),
  (0x1F75A, 0x414C4348454D4943414C2053594D424F4C20464F5220504F57444552454420425249434B20),
  (0x1F75B, 0x414C4348454D4943414C2053594D424F4C20464F5220414D414C47414D20),
  (0x1F75C, 0x414C4348454D4943414C2053594D424F4C20464F52205354524154554D205355504552205354524154554D20),
  (0x1F75D, 0x414C4348454D4943414C2053594D424F4C20464F52205354524154554D205355504552205354524154554D2D3220),
  (0x1F75E, 0x414C4348454D4943414C2053594D424F4C20464F52205355424C494D4154494F4E20),
  (0x1F75F, 0x414C4348454D4943414C2053594D424F4C20464F5220505245434950495441544520),
  (0x1F760, 0x414C4348454D4943414C2053594D424F4C20464F522044495354494C4C20),
  (0x1F761, 0x414C4348454D4943414C2053594D424F4C20464F5220444953534F4C564520),
  (0x1F762, 0x414C4348454D4943414C2053594D424F4C20464F5220444953534F4C56452D3220),
  (0x1F763, 0x414C4348454D4943414C2053594D424F4C20464F522050555249465920),
  (0x1F764, 0x414C4348454D4943414C2053594D424F4C20464F5220505554524546414354494F4E20),
  (0x1F765, 0x414C4348454D4943414C2053594D424F4C20464F52204352554349424C4520),
  (0x1F766, 0x414C4348454D4943414C2053594D424F4C20464F52204352554349424C452D3220),
  (0x1F767, 0x414C4348454D4943414C2053594D424F4C20464F52204352554349424C452D3320),
  (0x1F768, 0x414C4348454D4943414C2053594D424F4C20464F52204352554349424C452D3420),
  (0x1F769, 0x414C4348454D4943414C2053594D424F4C20464F52204352554349424C452D3520),
  (0x1F76A, 0x414C4348454D4943414C2053594D424F4C20464F5220414C454D42494320),
  (0x1F76B, 0x414C4348454D4943414C2053594D424F4C20464F522042415448204F46204D41525920),
  (0x1F76C, 0x414C4348454D4943414C2053594D424F4C20464F522042415448204F46205641504F55525320),
  (0x1F76D, 0x414C4348454D4943414C2053594D424F4C20464F52205245544F525420),
  (0x1F76E, 0x414C4348454D4943414C2053594D424F4C20464F5220484F555220),
  (0x1F76F, 0x414C4348454D4943414C2053594D424F4C20464F52204E4947485420),
  (0x1F770, 0x414C4348454D4943414C2053594D424F4C20464F52204441592D4E4947485420),
  (0x1F771, 0x414C4348454D4943414C2053594D424F4C20464F52204D4F4E544820),
  (0x1F772, 0x414C4348454D4943414C2053594D424F4C20464F522048414C46204452414D20),
  (0x1F773, 0x414C4348454D4943414C2053594D424F4C20464F522048414C46204F554E434520),
  (0x1F780, 0x424C41434B204C4546542D504F494E54494E472049534F5343454C455320524947485420545249414E474C4520),
  (0x1F781, 0x424C41434B2055502D504F494E54494E472049534F5343454C455320524947485420545249414E474C4520),
  (0x1F782, 0x424C41434B2052494748542D504F494E54494E472049534F5343454C455320524947485420545249414E474C4520),
  (0x1F783, 0x424C41434B20444F574E2D504F494E54494E472049534F5343454C455320524947485420545249414E474C4520),
  (0x1F784, 0x424C41434B20534C494748544C5920534D414C4C20434952434C4520),
  (0x1F785, 0x4D454449554D20424F4C4420574849544520434952434C4520),
  (0x1F786, 0x424F4C4420574849544520434952434C4520),
  (0x1F787, 0x484541565920574849544520434952434C4520),
  (0x1F788, 0x5645525920484541565920574849544520434952434C4520)]
def names_473 : List (Nat × Nat) := [
  (0x1F789, 0x45585452454D454C5920484541565920574849544520434952434C4520),
  (0x1F78A, 0x574849544520434952434C4520434F4E5441494E494E4720424C41434B20534D414C4C20434952434C4520),
  (0x1F78B, 0x524F554E442054415247455420),
  (0x1F78C, 0x424C41434B2054494E592053515541524520),
  (0x1F78D, 0x424C41434B20534C494748544C5920534D414C4C2053515541524520),
  (0x1F78E, 0x4C494748542057484954452053515541524520),
  (0x1F78F, 0x4D454449554D2057484954452053515541524520),
  (0x1F790, 0x424F4C442057484954452053515541524520),
  (0x1F791, 0x48454156592057484954452053515541524520),
  (0x1F792, 0x564552592048454156592057484954452053515541524520),
  (0x1F793, 0x45585452454D454C592048454156592057484954452053515541524520),
  (0x1F794, 0x57484954452053515541524520434F4E5441494E494E4720424C41434B205645525920534D414C4C2053515541524520),
  (0x1F795, 0x57484954452053515541524520434F4E5441494E494E4720424C41434B204D454449554D2053515541524520),
  (0x1F796, 0x5351554152452054415247455420),
  (0x1F797, 0x424C41434B2054494E59204449414D4F4E4420),
  (0x1F798, 0x424C41434B205645525920534D414C4C204449414D4F4E4420),
  (0x1F799, 0x424C41434B204D454449554D20534D414C4C204449414D4F4E4420),
  (0x1F79A, 0x5748495445204449414D4F4E4420434F4E5441494E494E4720424C41434B205645525920534D414C4C204449414D4F4E4420),
  (0x1F79B, 0x5748495445204449414D4F4E4420434F4E5441494E494E4720424C41434B204D454449554D204449414D4F4E4420),
  (0x1F79C, 0x4449414D4F4E442054415247455420),
  (0x1F79D, 0x424C41434B2054494E59204C4F5A454E474520),
  (0x1F79E, 0x424C41434B205645525920534D414C4C204C4F5A454E474520),
  (0x1F79F, 0x424C41434B204D454449554D20534D414C4C204C4F5A454E474520),
  (0x1F7A0, 0x5748495445204C4F5A454E474520434F4E5441494E494E4720424C41434B20534D414C4C204C4F5A454E474520),
  (0x1F7A1, 0x5448494E20475245454B2043524F535320),
  (0x1F7A2, 0x4C4947485420475245454B2043524F535320),
  (0x1F7A3, 0x4D454449554D20475245454B2043524F535320),
  (0x1F7A4, 0x424F4C4420475245454B2043524F535320),
  (0x1F7A5, 0x5645525920424F4C4420475245454B2043524F535320),
  (0x1F7A6, 0x5645525920484541565920475245454B2043524F535320),
  (0x1F7A7, 0x45585452454D454C5920484541565920475245454B2043524F535320),
  (0x1F7A8, 0x5448494E2053414C5449524520),
  (0x1F7A9, 0x4C494748542053414C5449524520),
  (0x1F7AA, 0x4D454449554D2053414C5449524520),
  (0x1F7AB, 0x424F4C442053414C5449524520),
  (0x1F7AC, 0x48454156592053414C5449524520),
  (0x1F7AD, 0x564552592048454156592053414C5449524520),
  (0x1F7AE, 0x45585452454D454C592048454156592053414C5449524520),
  (0x1F7AF, 0x4C4947485420464956452053504F4B454420415354455249534B20),
  (0x1F7B0, 0x4D454449554D20464956452053504F4B454420415354455249534B20),
  (0x1F7B1, 0x424F4C4420464956452053504F4B454420415354455249534B20),
  (0x1F7B2, 0x484541565920464956452053504F4B454420415354455249534B20),
  (0x1F7B3, 0x5645525920484541565920464956452053504F4B454420415354455249534B20),
  (0x1F7B4, 0x45585452454D454C5920484541565920464956452053504F4B454420415354455249534B20),
  (0x1F7B5, 0x4C49474854205349582053504F4B454420415354455249534B20),
  (0x1F7B6, 0x4D454449554D205349582053504F4B454420415354455249534B20),
  (0x1F7B7, 0x424F4C44205349582053504F4B454420415354455249534B20),
  (0x1F7B8, 0x4845415659205349582053504F4B454420415354455249534B20),
  (0x1F7B9, 0x56455259204845415659205349582053504F4B454420415354455249534B20),
  (0x1F7BA, 0x45585452454D454C59204845415659205349582053504F4B454420415354455249534B20),
  (0x1F7BB, 0x4C494748542045494748542053504F4B454420415354455249534B20),
  (0x1F7BC, 0x4D454449554D2045494748542053504F4B454420415354455249534B20),
  (0x1F7BD, 0x424F4C442045494748542053504F4B454420415354455249534B20),
  (0x1F7BE, 0x48454156592045494748542053504F4B454420415354455249534B20),
  (0x1F7BF, 0x564552592048454156592045494748542053504F4B454420415354455249534B20),
  (0x1F7C0, 0x4C4947485420544852454520504F494E54454420424C41434B205354415220),
  (0x1F7C1, 0x4D454449554D20544852454520504F494E54454420424C41434B205354415220),
  (0x1F7C2, 0x544852454520504F494E54454420424C41434B205354415220),
  (0x1F7C3, 0x4D454449554D20544852454520504F494E5445442050494E574845454C205354415220),
  (0x1F7C4, 0x4C4947485420464F555220504F494E54454420424C41434B205354415220),
  (0x1F7C5, 0x4D454449554D20464F555220504F494E54454420424C41434B205354415220),
  (0x1F7C6, 0x464F555220504F494E54454420424C41434B205354415220),
  (0x1F7C7, 0x4D454449554D20464F555220504F494E5445442050494E574845454C205354415220),
  (0x1F7C8, 0x52455645525345204C4947485420464F555220504F494E5445442050494E574845454C205354415220)]
def names_474 : List (Nat × Nat) := [
  (0x1F7C9, 0x4C49474854204649564520504F494E54454420424C41434B205354415220),
  (0x1F7CA, 0x4845415659204649564520504F494E54454420424C41434B205354415220),
  (0x1F7CB, 0x4D454449554D2053495820504F494E54454420424C41434B205354415220),
  (0x1F7CC, 0x48454156592053495820504F494E54454420424C41434B205354415220),
  (0x1F7CD, 0x53495820504F494E5445442050494E574845454C205354415220),
  (0x1F7CE, 0x4D454449554D20454947485420504F494E54454420424C41434B205354415220),
  (0x1F7CF, 0x484541565920454947485420504F494E54454420424C41434B205354415220),
  (0x1F7D0, 0x5645525920484541565920454947485420504F494E54454420424C41434B205354415220),
  (0x1F7D1, 0x484541565920454947485420504F494E5445442050494E574845454C205354415220),
  (0x1F7D2, 0x4C49474854205457454C564520504F494E54454420424C41434B205354415220),
  (0x1F7D3, 0x4845415659205457454C564520504F494E54454420424C41434B205354415220),
  (0x1F7D4, 0x4845415659205457454C564520504F494E5445442050494E574845454C205354415220),
  (0x1F800, 0x4C4546545741524453204152524F57205749544820534D414C4C20545249414E474C45204152524F574845414420),
  (0x1F801, 0x55505741524453204152524F57205749544820534D414C4C20545249414E474C45204152524F574845414420),
  (0x1F802, 0x52494748545741524453204152524F57205749544820534D414C4C20545249414E474C45204152524F574845414420),
  (0x1F803, 0x444F574E5741524453204152524F57205749544820534D414C4C20545249414E474C45204152524F574845414420),
  (0x1F804, 0x4C4546545741524453204152524F572057495448204D454449554D20545249414E474C45204152524F574845414420),
  (0x1F805, 0x55505741524453204152524F572057495448204D454449554D20545249414E474C45204152524F574845414420),
  (0x1F806, 0x52494748545741524453204152524F572057495448204D454449554D20545249414E474C45204152524F574845414420),
  (0x1F807, 0x444F574E5741524453204152524F572057495448204D454449554D20545249414E474C45204152524F574845414420),
  (0x1F808, 0x4C4546545741524453204152524F572057495448204C4152474520545249414E474C45204152524F574845414420),
  (0x1F809, 0x55505741524453204152524F572057495448204C4152474520545249414E474C45204152524F574845414420),
  (0x1F80A, 0x52494748545741524453204152524F572057495448204C4152474520545249414E474C45204152524F574845414420),
  (0x1F80B, 0x444F574E5741524453204152524F572057495448204C4152474520545249414E474C45204152524F574845414420),
  (0x1F810, 0x4C4546545741524453204152524F57205749544820534D414C4C20455155494C41544552414C204152524F574845414420),
  (0x1F811, 0x55505741524453204152524F57205749544820534D414C4C20455155494C41544552414C204152524F574845414420),
  (0x1F812, 0x52494748545741524453204152524F57205749544820534D414C4C20455155494C41544552414C204152524F574845414420),
  (0x1F813, 0x444F574E5741524453204152524F57205749544820534D414C4C20455155494C41544552414C204152524F574845414420),
  (0x1F814, 0x4C4546545741524453204152524F57205749544820455155494C41544552414C204152524F574845414420),
  (0x1F815, 0x55505741524453204152524F57205749544820455155494C41544552414C204152524F574845414420),
  (0x1F816, 0x52494748545741524453204152524F57205749544820455155494C41544552414C204152524F574845414420),
  (0x1F817, 0x444F574E5741524453204152524F57205749544820455155494C41544552414C204152524F574845414420),
  (0x1F818, 0x4845415659204C4546545741524453204152524F57205749544820455155494C41544552414C204152524F574845414420),
  (0x1F819, 0x48454156592055505741524453204152524F57205749544820455155494C41544552414C204152524F574845414420),
  (0x1F81A, 0x48454156592052494748545741524453204152524F57205749544820455155494C41544552414C204152524F574845414420),
  (0x1F81B, 0x484541565920444F574E5741524453204152524F57205749544820455155494C41544552414C204152524F574845414420),
  (0x1F81C, 0x4845415659204C4546545741524453204152524F572057495448204C4152474520455155494C41544552414C204152524F574845414420),
  (0x1F81D, 0x48454156592055505741524453204152524F572057495448204C4152474520455155494C41544552414C204152524F574845414420),
  (0x1F81E, 0x48454156592052494748545741524453204152524F572057495448204C4152474520455155494C41544552414C204152524F574845414420),
  (0x1F81F, 0x484541565920444F574E5741524453204152524F572057495448204C4152474520455155494C41544552414C204152524F574845414420),
  (0x1F820, 0x4C454654574152445320545249414E474C452D484541444544204152524F572057495448204E4152524F5720534841465420),
  (0x1F821, 0x5550574152445320545249414E474C452D484541444544204152524F572057495448204E4152524F5720534841465420),
  (0x1F822, 0x5249474854574152445320545249414E474C452D484541444544204152524F572057495448204E4152524F5720534841465420),
  (0x1F823, 0x444F574E574152445320545249414E474C452D484541444544204152524F572057495448204E4152524F5720534841465420),
  (0x1F824, 0x4C454654574152445320545249414E474C452D484541444544204152524F572057495448204D454449554D20534841465420),
  (0x1F825, 0x5550574152445320545249414E474C452D484541444544204152524F572057495448204D454449554D20534841465420),
  (0x1F826, 0x5249474854574152445320545249414E474C452D484541444544204152524F572057495448204D454449554D20534841465420),
  (0x1F827, 0x444F574E574152445320545249414E474C452D484541444544204152524F572057495448204D454449554D20534841465420),
  (0x1F828, 0x4C454654574152445320545249414E474C452D484541444544204152524F57205749544820424F4C4420534841465420),
  (0x1F829, 0x5550574152445320545249414E474C452D484541444544204152524F57205749544820424F4C4420534841465420),
  (0x1F82A, 0x5249474854574152445320545249414E474C452D484541444544204152524F57205749544820424F4C4420534841465420),
  (0x1F82B, 0x444F574E574152445320545249414E474C452D484541444544204152524F57205749544820424F4C4420534841465420),
  (0x1F82C, 0x4C454654574152445320545249414E474C452D484541444544204152524F57205749544820484541565920534841465420),
  (0x1F82D, 0x5550574152445320545249414E474C452D484541444544204152524F57205749544820484541565920534841465420),
  (0x1F82E, 0x5249474854574152445320545249414E474C452D484541444544204152524F57205749544820484541565920534841465420),
  (0x1F82F, 0x444F574E574152445320545249414E474C452D484541444544204152524F57205749544820484541565920534841465420),
  (0x1F830, 0x4C454654574152445320545249414E474C452D484541444544204152524F572057495448205645525920484541565920534841465420),
  (0x1F831, 0x5550574152445320545249414E474C452D484541444544204152524F572057495448205645525920484541565920534841465420),
  (0x1F832, 0x5249474854574152445320545249414E474C452D484541444544204152524F572057495448205645525920484541565920534841465420),
  (0x1F833, 0x444F574E574152445320545249414E474C452D484541444544204152524F572057495448205645525920484541565920534841465420),
  (0x1F834, 0x4C45465457415244532046494E4745522D504F5354204152524F5720),
  (0x1F835, 0x555057415244532046494E4745522D504F5354204152524F5720),
  (0x1F836, 0x524947485457415244532046494E4745522D504F5354204152524F5720),
  (0x1F837, 0x444F574E57415244532046494E4745522D504F5354204152524F5720)]
def names_475 : List (Nat × Nat) := [
  (0x1F838, 0x4C45465457415244532053515541524544204152524F5720),
  (0x1F839, 0x555057415244532053515541524544204152524F5720),
  (0x1F83A, 0x524947485457415244532053515541524544204152524F5720),
  (0x1F83B, 0x444F574E57415244532053515541524544204152524F5720),
  (0x1F83C, 0x4C454654574152445320434F4D50524553534544204152524F5720),
  (0x1F83D, 0x5550574152445320434F4D50524553534544204152524F5720),
  (0x1F83E, 0x5249474854574152445320434F4D50524553534544204152524F5720),
  (0x1F83F, 0x444F574E574152445320434F4D50524553534544204152524F5720),
  (0x1F840, 0x4C454654574152445320484541565920434F4D50524553534544204152524F5720),
  (0x1F841, 0x5550574152445320484541565920434F4D50524553534544204152524F5720),
  (0x1F842, 0x5249474854574152445320484541565920434F4D50524553534544204152524F5720),
  (0x1F843, 0x444F574E574152445320484541565920434F4D50524553534544204152524F5720),
  (0x1F844, 0x4C4546545741524453204845415659204152524F5720),
  (0x1F845, 0x55505741524453204845415659204152524F5720),
  (0x1F846, 0x52494748545741524453204845415659204152524F5720),
  (0x1F847, 0x444F574E5741524453204845415659204152524F5720),
  (0x1F850, 0x4C45465457415244532053414E532D5345524946204152524F5720),
  (0x1F851, 0x555057415244532053414E532D5345524946204152524F5720),
  (0x1F852, 0x524947485457415244532053414E532D5345524946204152524F5720),
  (0x1F853, 0x444F574E57415244532053414E532D5345524946204152524F5720),
  (0x1F854, 0x4E4F52544820574553542053414E532D5345524946204152524F5720),
  (0x1F855, 0x4E4F52544820454153542053414E532D5345524946204152524F5720),
  (0x1F856, 0x534F55544820454153542053414E532D5345524946204152524F5720),
  (0x1F857, 0x534F55544820574553542053414E532D5345524946204152524F5720),
  (0x1F858, 0x4C4546542052494748542053414E532D5345524946204152524F5720),
  (0x1F859, 0x555020444F574E2053414E532D5345524946204152524F5720),
  (0x1F860, 0x574944452D484541444544204C4546545741524453204C494748542042415242204152524F5720),
  (0x1F861, 0x574944452D4845414445442055505741524453204C494748542042415242204152524F5720),
  (0x1F862, 0x574944452D4845414445442052494748545741524453204C494748542042415242204152524F5720),
  (0x1F863, 0x574944452D48454144454420444F574E5741524453204C494748542042415242204152524F5720),
  (0x1F864, 0x574944452D484541444544204E4F5254482057455354204C494748542042415242204152524F5720),
  (0x1F865, 0x574944452D484541444544204E4F5254482045415354204C494748542042415242204152524F5720),
  (0x1F866, 0x574944452D48454144454420534F5554482045415354204C494748542042415242204152524F5720),
  (0x1F867, 0x574944452D48454144454420534F5554482057455354204C494748542042415242204152524F5720),
  (0x1F868, 0x574944452D484541444544204C45465457415244532042415242204152524F5720),
  (0x1F869, 0x574944452D48454144454420555057415244532042415242204152524F5720),
  (0x1F86A, 0x574944452D48454144454420524947485457415244532042415242204152524F5720),
  (0x1F86B, 0x574944452D48454144454420444F574E57415244532042415242204152524F5720),
  (0x1F86C, 0x574944452D484541444544204E4F52544820574553542042415242204152524F5720),
  (0x1F86D, 0x574944452D484541444544204E4F52544820454153542042415242204152524F5720),
  (0x1F86E, 0x574944452D48454144454420534F55544820454153542042415242204152524F5720),
  (0x1F86F, 0x574944452D48454144454420534F55544820574553542042415242204152524F5720),
  (0x1F870, 0x574944452D484541444544204C4546545741524453204D454449554D2042415242204152524F5720),
  (0x1F871, 0x574944452D4845414445442055505741524453204D454449554D2042415242204152524F5720),
  (0x1F872, 0x574944452D4845414445442052494748545741524453204D454449554D2042415242204152524F5720),
  (0x1F873, 0x574944452D48454144454420444F574E5741524453204D454449554D2042415242204152524F5720),
  (0x1F874, 0x574944452D484541444544204E4F5254482057455354204D454449554D2042415242204152524F5720),
  (0x1F875, 0x574944452D484541444544204E4F5254482045415354204D454449554D2042415242204152524F5720),
  (0x1F876, 0x574944452D48454144454420534F5554482045415354204D454449554D2042415242204152524F5720),
  (0x1F877, 0x574944452D48454144454420534F5554482057455354204D454449554D2042415242204152524F5720),
  (0x1F878, 0x574944452D484541444544204C45465457415244532048454156592042415242204152524F5720),
  (0x1F879, 0x574944452D48454144454420555057415244532048454156592042415242204152524F5720),
  (0x1F87A, 0x574944452D48454144454420524947485457415244532048454156592042415242204152524F5720),
  (0x1F87B, 0x574944452D48454144454420444F574E57415244532048454156592042415242204152524F5720),
  (0x1F87C, 0x574944452D484541444544204E4F52544820574553542048454156592042415242204152524F5720),
  (0x1F87D, 0x574944452D484541444544204E4F52544820454153542048454156592042415242204152524F5720),
  (0x1F87E, 0x574944452D48454144454420534F55544820454153542048454156592042415242204152524F5720),
  (0x1F87F, 0x574944452D48454144454420534F55544820574553542048454156592042415242204152524F5720),
  (0x1F880, 0x574944452D484541444544204C454654574152445320564552592048454156592042415242204152524F5720),
  (0x1F881, 0x574944452D484541444544205550574152445320564552592048454156592042415242204152524F5720),
  (0x1F882, 0x574944452D484541444544205249474854574152445320564552592048454156592042415242204152524F5720),
  (0x1F883, 0x574944452D48454144454420444F574E574152445320564552592048454156592042415242204152524F5720),
  (0x1F884, 0x574944452D484541444544204E4F525448205745535420564552592048454156592042415242204152524F5720),
  (0x1F885, 0x574944452D484541444544204E4F525448204541535420564552592048454156592042415242204152524F5720)]
def names_476 : List (Nat × Nat) := [
  (0x1F886, 0x574944452D48454144454420534F555448204541535420564552592048454156592042415242204152524F5720),
  (0x1F887, 0x574944452D48454144454420534F555448205745535420564552592048454156592042415242204152524F5720),
  (0x1F890, 0x4C454654574152445320545249414E474C45204152524F574845414420),
  (0x1F891, 0x5550574152445320545249414E474C45204152524F574845414420),
  (0x1F892, 0x5249474854574152445320545249414E474C45204152524F574845414420),
  (0x1F893, 0x444F574E574152445320545249414E474C45204152524F574845414420),
  (0x1F894, 0x4C4546545741524453205748495445204152524F572057495448494E20545249414E474C45204152524F574845414420),
  (0x1F895, 0x55505741524453205748495445204152524F572057495448494E20545249414E474C45204152524F574845414420),
  (0x1F896, 0x52494748545741524453205748495445204152524F572057495448494E20545249414E474C45204152524F574845414420),
  (0x1F897, 0x444F574E5741524453205748495445204152524F572057495448494E20545249414E474C45204152524F574845414420),
  (0x1F898, 0x4C4546545741524453204152524F572057495448204E4F5443484544205441494C20),
  (0x1F899, 0x55505741524453204152524F572057495448204E4F5443484544205441494C20),
  (0x1F89A, 0x52494748545741524453204152524F572057495448204E4F5443484544205441494C20),
  (0x1F89B, 0x444F574E5741524453204152524F572057495448204E4F5443484544205441494C20),
  (0x1F89C, 0x4845415659204152524F57205348414654205749445448204F4E4520),
  (0x1F89D, 0x4845415659204152524F572053484146542057494454482054574F2054484952445320),
  (0x1F89E, 0x4845415659204152524F57205348414654205749445448204F4E452048414C4620),
  (0x1F89F, 0x4845415659204152524F57205348414654205749445448204F4E4520544849524420),
  (0x1F8A0, 0x4C454654574152445320424F54544F4D2D534841444544205748495445204152524F5720),
  (0x1F8A1, 0x5249474854574152445320424F54544F4D20534841444544205748495445204152524F5720),
  (0x1F8A2, 0x4C454654574152445320544F5020534841444544205748495445204152524F5720),
  (0x1F8A3, 0x5249474854574152445320544F5020534841444544205748495445204152524F5720),
  (0x1F8A4, 0x4C4546545741524453204C4546542D534841444544205748495445204152524F5720),
  (0x1F8A5, 0x524947485457415244532052494748542D534841444544205748495445204152524F5720),
  (0x1F8A6, 0x4C45465457415244532052494748542D534841444544205748495445204152524F5720),
  (0x1F8A7, 0x52494748545741524453204C4546542D534841444544205748495445204152524F5720),
  (0x1F8A8, 0x4C4546545741524453204241434B2D54494C54454420534841444F574544205748495445204152524F5720),
  (0x1F8A9, 0x52494748545741524453204241434B2D54494C54454420534841444F574544205748495445204152524F5720),
  (0x1F8AA, 0x4C45465457415244532046524F4E542D54494C54454420534841444F574544205748495445204152524F5720),
  (0x1F8AB, 0x524947485457415244532046524F4E542D54494C54454420534841444F574544205748495445204152524F5720),
  (0x1F8AC, 0x5748495445204152524F57205348414654205749445448204F4E4520),
  (0x1F8AD, 0x5748495445204152524F572053484146542057494454482054574F2054484952445320),
  (0x1F900, 0x434952434C45442043524F535320464F524D4545205749544820464F555220444F545320),
  (0x1F901, 0x434952434C45442043524F535320464F524D454520574954482054574F20444F545320),
  (0x1F902, 0x434952434C45442043524F535320464F524D454520),
  (0x1F903, 0x4C4546542048414C4620434952434C45205749544820464F555220444F545320),
  (0x1F904, 0x4C4546542048414C4620434952434C45205749544820544852454520444F545320),
  (0x1F905, 0x4C4546542048414C4620434952434C4520574954482054574F20444F545320),
  (0x1F906, 0x4C4546542048414C4620434952434C45205749544820444F5420),
  (0x1F907, 0x4C4546542048414C4620434952434C4520),
  (0x1F908, 0x444F574E5741524420464143494E4720484F4F4B20),
  (0x1F909, 0x444F574E5741524420464143494E47204E4F544348454420484F4F4B20),
  (0x1F90A, 0x444F574E5741524420464143494E4720484F4F4B205749544820444F5420),
  (0x1F90B, 0x444F574E5741524420464143494E47204E4F544348454420484F4F4B205749544820444F5420),
  (0x1F910, 0x5A49505045522D4D4F555448204641434520),
  (0x1F911, 0x4D4F4E45592D4D4F555448204641434520),
  (0x1F912, 0x46414345205749544820544845524D4F4D4554455220),
  (0x1F913, 0x4E455244204641434520),
  (0x1F914, 0x5448494E4B494E47204641434520),
  (0x1F915, 0x46414345205749544820484541442D42414E4441474520),
  (0x1F916, 0x524F424F54204641434520),
  (0x1F917, 0x48554747494E47204641434520),
  (0x1F918, 0x5349474E204F462054484520484F524E5320),
  (0x1F919, 0x43414C4C204D452048414E4420),
  (0x1F91A, 0x524149534544204241434B204F462048414E4420),
  (0x1F91B, 0x4C4546542D464143494E47204649535420),
  (0x1F91C, 0x52494748542D464143494E47204649535420),
  (0x1F91D, 0x48414E445348414B4520),
  (0x1F91E, 0x48414E44205749544820494E44455820414E44204D4944444C452046494E474552532043524F5353454420),
  (0x1F91F, 0x49204C4F564520594F552048414E44205349474E20),
  (0x1F920, 0x46414345205749544820434F57424F592048415420),
  (0x1F921, 0x434C4F574E204641434520),
  (0x1F922, 0x4E4155534541544544204641434520),
  (0x1F923, 0x524F4C4C494E47204F4E2054484520464C4F4F52204C41554748494E4720)]
def names_477 : List (Nat × Nat) := [
  (0x1F924, 0x44524F4F4C494E47204641434520),
  (0x1F925, 0x4C59494E47204641434520),
  (0x1F926, 0x464143452050414C4D20),
  (0x1F927, 0x534E45455A494E47204641434520),
  (0x1F928, 0x464143452057495448204F4E452045594542524F572052414953454420),
  (0x1F929, 0x4752494E4E494E47204641434520574954482053544152204559455320),
  (0x1F92A, 0x4752494E4E494E4720464143452057495448204F4E45204C4152474520414E44204F4E4520534D414C4C2045594520),
  (0x1F92B, 0x4641434520574954482046494E47455220434F564552494E4720434C4F534544204C49505320),
  (0x1F92C, 0x534552494F5553204641434520574954482053594D424F4C5320434F564552494E47204D4F55544820),
  (0x1F92D, 0x534D494C494E472046414345205749544820534D494C494E47204559455320414E442048414E4420434F564552494E47204D4F55544820),
  (0x1F92E, 0x464143452057495448204F50454E204D4F55544820564F4D4954494E4720),
  (0x1F92F, 0x53484F434B454420464143452057495448204558504C4F44494E47204845414420),
  (0x1F930, 0x505245474E414E5420574F4D414E20),
  (0x1F931, 0x4252454153542D46454544494E4720),
  (0x1F932, 0x50414C4D5320555020544F47455448455220),
  (0x1F933, 0x53454C46494520),
  (0x1F934, 0x5052494E434520),
  (0x1F935, 0x4D414E20494E2054555845444F20),
  (0x1F936, 0x4D4F54484552204348524953544D415320),
  (0x1F937, 0x534852554720),
  (0x1F938, 0x504552534F4E20444F494E472043415254574845454C20),
  (0x1F939, 0x4A5547474C494E4720),
  (0x1F93A, 0x46454E43455220),
  (0x1F93B, 0x4D4F4445524E2050454E544154484C4F4E20),
  (0x1F93C, 0x57524553544C45525320),
  (0x1F93D, 0x574154455220504F4C4F20),
  (0x1F93E, 0x48414E4442414C4C20),
  (0x1F940, 0x57494C54454420464C4F57455220),
  (0x1F941, 0x4452554D2057495448204452554D535449434B5320),
  (0x1F942, 0x434C494E4B494E4720474C415353455320),
  (0x1F943, 0x54554D424C455220474C41535320),
  (0x1F944, 0x53504F4F4E20),
  (0x1F945, 0x474F414C204E455420),
  (0x1F946, 0x5249464C4520),
  (0x1F947, 0x464952535420504C414345204D4544414C20),
  (0x1F948, 0x5345434F4E4420504C414345204D4544414C20),
  (0x1F949, 0x544849524420504C414345204D4544414C20),
  (0x1F94A, 0x424F58494E4720474C4F564520),
  (0x1F94B, 0x4D41525449414C204152545320554E49464F524D20),
  (0x1F94C, 0x4355524C494E472053544F4E4520),
  (0x1F950, 0x43524F495353414E5420),
  (0x1F951, 0x41564F4341444F20),
  (0x1F952, 0x435543554D42455220),
  (0x1F953, 0x4241434F4E20),
  (0x1F954, 0x504F5441544F20),
  (0x1F955, 0x434152524F5420),
  (0x1F956, 0x424147554554544520425245414420),
  (0x1F957, 0x475245454E2053414C414420),
  (0x1F958, 0x5348414C4C4F572050414E204F4620464F4F4420),
  (0x1F959, 0x5354554646454420464C4154425245414420),
  (0x1F95A, 0x45474720),
  (0x1F95B, 0x474C415353204F46204D494C4B20),
  (0x1F95C, 0x5045414E55545320),
  (0x1F95D, 0x4B495749465255495420),
  (0x1F95E, 0x50414E43414B455320),
  (0x1F95F, 0x44554D504C494E4720),
  (0x1F960, 0x464F5254554E4520434F4F4B494520),
  (0x1F961, 0x54414B454F555420424F5820),
  (0x1F962, 0x43484F50535449434B5320),
  (0x1F963, 0x424F574C20574954482053504F4F4E20),
  (0x1F964, 0x435550205749544820535452415720),
  (0x1F965, 0x434F434F4E555420),
  (0x1F966, 0x42524F43434F4C4920),
  (0x1F967, 0x50494520)]
def names_478 : List (Nat × Nat) := [
  (0x1F968, 0x505245545A454C20),
  (0x1F969, 0x435554204F46204D45415420),
  (0x1F96A, 0x53414E445749434820),
  (0x1F96B, 0x43414E4E454420464F4F4420),
  (0x1F980, 0x4352414220),
  (0x1F981, 0x4C494F4E204641434520),
  (0x1F982, 0x53434F5250494F4E20),
  (0x1F983, 0x5455524B455920),
  (0x1F984, 0x554E49434F524E204641434520),
  (0x1F985, 0x4541474C4520),
  (0x1F986, 0x4455434B20),
  (0x1F987, 0x42415420),
  (0x1F988, 0x534841524B20),
  (0x1F989, 0x4F574C20),
  (0x1F98A, 0x464F58204641434520),
  (0x1F98B, 0x425554544552464C5920),
  (0x1F98C, 0x4445455220),
  (0x1F98D, 0x474F52494C4C4120),
  (0x1F98E, 0x4C495A41524420),
  (0x1F98F, 0x5248494E4F4345524F5320),
  (0x1F990, 0x534852494D5020),
  (0x1F991, 0x535155494420),
  (0x1F992, 0x47495241464645204641434520),
  (0x1F993, 0x5A45425241204641434520),
  (0x1F994, 0x4845444745484F4720),
  (0x1F995, 0x534155524F504F4420),
  (0x1F996, 0x542D52455820),
  (0x1F997, 0x435249434B455420),
  (0x1F9C0, 0x43484545534520574544474520),
  (0x1F9D0, 0x464143452057495448204D4F4E4F434C4520),
  (0x1F9D1, 0x4144554C5420),
  (0x1F9D2, 0x4348494C4420),
  (0x1F9D3, 0x4F4C444552204144554C5420),
  (0x1F9D4, 0x4245415244454420504552534F4E20),
  (0x1F9D5, 0x504552534F4E20574954482048454144534341524620),
  (0x1F9D6, 0x504552534F4E20494E20535445414D5920524F4F4D20),
  (0x1F9D7, 0x504552534F4E20434C494D42494E4720),
  (0x1F9D8, 0x504552534F4E20494E204C4F54555320504F534954494F4E20),
  (0x1F9D9, 0x4D41474520),
  (0x1F9DA, 0x464149525920),
  (0x1F9DB, 0x56414D5049524520),
  (0x1F9DC, 0x4D4552504552534F4E20),
  (0x1F9DD, 0x454C4620),
  (0x1F9DE, 0x47454E494520),
  (0x1F9DF, 0x5A4F4D42494520),
  (0x1F9E0, 0x425241494E20),
  (0x1F9E1, 0x4F52414E474520484541525420),
  (0x1F9E2, 0x42494C4C45442043415020),
  (0x1F9E3, 0x534341524620),
  (0x1F9E4, 0x474C4F56455320),
  (0x1F9E5, 0x434F415420),
  (0x1F9E6, 0x534F434B5320),
  (0x2F800, 0x434A4B20434F4D5041544942494C495459204944454F47524150482D324638303020),
  (0x2F801, 0x434A4B20434F4D5041544942494C495459204944454F47524150482D324638303120),
  (0x2F802, 0x434A4B20434F4D5041544942494C495459204944454F47524150482D324638303220),
  (0x2F803, 0x434A4B20434F4D5041544942494C495459204944454F47524150482D324638303320),
  (0x2F804, 0x434A4B20434F4D5041544942494C495459204944454F47524150482D324638303420),
  (0x2F805, 0x434A4B20434F4D5041544942494C495459204944454F47524150482D324638303520),
  (0x2F806, 0x434A4B20434F4D5041544942494C495459204944454F47524150482D324638303620),
  (0x2F807, 0x434A4B20434F4D5041544942494C495459204944454F47524150482D324638303720),
  (0x2F808, 0x434A4B20434F4D5041544942494C495459204944454F47524150482D324638303820),
  (0x2F809, 0x434A4B20434F4D5041544942494C495459204944454F47524150482D324638303920),
  (0x2F80A, 0x434A4B20434F4D5041544942494C495459204944454F47524150482D324638304120),
  (0x2F80B, 0x434A4B20434F4D5041544942494C495459204944454F47524150482D324638304220)]
def names_479 : List (Nat × Nat) := [
  (0x2F80C, 0x434A4B20434F4D5041544942494C495459204944454F47524150482D324638304320),
  (0x2F80D, 0x434A4B20434F4D5041544942494C495459204944454F47524150482D324638304420),
  (0x2F80E, 0x434A4B20434F4D5041544942494C495459204944454F47524150482D324638304520),
  (0x2F80F, 0x434A4B20434F4D5041544942494C495459204944454F47524150482D324638304620),
  (0x2F810, 0x434A4B20434F4D5041544942494C495459204944454F47524150482D324638313020),
  (0x2F811, 0x434A4B20434F4D5041544942494C495459204944454F47524150482D324638313120),
  (0x2F812, 0x434A4B20434F4D5041544942494C495459204944454F47524150482D324638313220),
  (0x2F813, 0x434A4B20434F4D5041544942494C495459204944454F47524150482D324638313320),
  (0x2F814, 0x434A4B20434F4D5041544942494C495459204944454F47524150482D324638313420),
  (0x2F815, 0x434A4B20434F4D5041544942494C495459204944454F47524150482D324638313520),
  (0x2F816, 0x434A4B20434F4D5041544942494C495459204944454F47524150482D324638313620),
  (0x2F817, 0x434A4B20434F4D5041544942494C495459204944454F47524150482D324638313720),
  (0x2F818, 0x434A4B20434F4D5041544942494C495459204944454F47524150482D324638313820),
  (0x2F819, 0x434A4B20434F4D5041544942494C495459204944454F47524150482D324638313920),
  (0x2F81A, 0x434A4B20434F4D5041544942494C495459204944454F47524150482D324638314120),
  (0x2F81B, 0x434A4B20434F4D5041544942494C495459204944454F47524150482D324638314220),
  (0x2F81C, 0x434A4B20434F4D5041544942494C495459204944454F47524150482D324638314320),
  (0x2F81D, 0x434A4B20434F4D5041544942494C495459204944454F47524150482D324638314420),
  (0x2F81E, 0x434A4B20434F4D5041544942494C495459204944454F47524150482D324638314520),
  (0x2F81F, 0x434A4B20434F4D5041544942494C495459204944454F47524150482D324638314620),
  (0x2F820, 0x434A4B20434F4D5041544942494C495459204944454F47524150482D324638323020),
  (0x2F821, 0x434A4B20434F4D5041544942494C495459204944454F47524150482D324638323120),
  (0x2F822, 0x434A4B20434F4D5041544942494C495459204944454F47524150482D324638323220),
  (0x2F823, 0x434A4B20434F4D5041544942494C495459204944454F47524150482D324638323320),
  (0x2F824, 0x434A4B20434F4D5041544942494C495459204944454F47524150482D324638323420),
  (0x2F825, 0x434A4B20434F4D5041544942494C495459204944454F47524150482D324638323520),
  (0x2F826, 0x434A4B20434F4D5041544942494C495459204944454F47524150482D324638323620),
  (0x2F827, 0x434A4B20434F4D5041544942494C495459204944454F47524150482D324638323720),
  (0x2F828, 0x434A4B20434F4D5041544942494C495459204944454F47524150482D324638323820),
  (0x2F829, 0x434A4B20434F4D5041544942494C495459204944454F47524150482D324638323920),
  (0x2F82A, 0x434A4B20434F4D5041544942494C495459204944454F47524150482D324638324120),
  (0x2F82B, 0x434A4B20434F4D5041544942494C495459204944454F47524150482D324638324220),
  (0x2F82C, 0x434A4B20434F4D5041544942494C495459204944454F47524150482D324638324320),
  (0x2F82D, 0x434A4B20434F4D5041544942494C495459204944454F47524150482D324638324420),
  (0x2F82E, 0x434A4B20434F4D5041544942494C495459204944454F47524150482D324638324520),
  (0x2F82F, 0x434A4B20434F4D5041544942494C495459204944454F47524150482D324638324620),
  (0x2F830, 0x434A4B20434F4D5041544942494C495459204944454F47524150482D324638333020),
  (0x2F831, 0x434A4B20434F4D5041544942494C495459204944454F47524150482D324638333120),
  (0x2F832, 0x434A4B20434F4D5041544942494C495459204944454F47524150482D324638333220),
  (0x2F833, 0x434A4B20434F4D5041544942494C495459204944454F47524150482D324638333320),
  (0x2F834, 0x434A4B20434F4D5041544942494C495459204944454F47524150482D324638333420),
  (0x2F835, 0x434A4B20434F4D5041544942494C495459204944454F47524150482D324638333520),
  (0x2F836, 0x434A4B20434F4D5041544942494C495459204944454F47524150482D324638333620),
  (0x2F837, 0x434A4B20434F4D5041544942494C495459204944454F47524150482D324638333720),
  (0x2F838, 0x434A4B20434F4D5041544942494C495459204944454F47524150482D324638333820),
  (0x2F839, 0x434A4B20434F4D5041544942494C495459204944454F47524150482D324638333920),
  (0x2F83A, 0x434A4B20434F4D5041544942494C495459204944454F47524150482D324638334120),
  (0x2F83B, 0x434A4B20434F4D5041544942494C495459204944454F47524150482D324638334220),
  (0x2F83C, 0x434A4B20434F4D5041544942494C495459204944454F47524150482D324638334320),
  (0x2F83D, 0x434A4B20434F4D5041544942494C495459204944454F47524150482D324638334420),
  (0x2F83E, 0x434A4B20434F4D5041544942494C495459204944454F47524150482D324638334520),
  (0x2F83F, 0x434A4B20434F4D5041544942494C495459204944454F47524150482D324638334620),
  (0x2F840, 0x434A4B20434F4D5041544942494C495459204944454F47524150482D324638343020),
  (0x2F841, 0x434A4B20434F4D5041544942494C495459204944454F47524150482D324638343120),
  (0x2F842, 0x434A4B20434F4D5041544942494C495459204944454F47524150482D324638343220),
  (0x2F843, 0x434A4B20434F4D5041544942494C495459204944454F47524150482D324638343320),
  (0x2F844, 0x434A4B20434F4D5041544942494C495459204944454F47524150482D324638343420),
  (0x2F845, 0x434A4B20434F4D5041544942494C495459204944454F47524150482D324638343520),
  (0x2F846, 0x434A4B20434F4D5041544942494C495459204944454F47524150482D324638343620),
  (0x2F847, 0x434A4B20434F4D5041544942494C495459204944454F47524150482D324638343720),
  (0x2F848, 0x434A4B20434F4D5041544942494C495459204944454F47524150482D324638343820),
  (0x2F849, 0x434A4B20434F4D5041544942494C495459204944454F47524150482D324638343920),
  (0x2F84A, 0x434A4B20434F4D5041544942494C495459204944454F47524150482D324638344120),
  (0x2F84B, 0x434A4B20434F4D5041544942494C495459204944454F47524150482D324638344220)]
def names_480 : List (Nat × Nat) := [
  (0x2F84C, 0x434A4B20434F4D5041544942494C495459204944454F47524150482D324638344320),
  (0x2F84D, 0x434A4B20434F4D5041544942494C495459204944454F47524150482D324638344420),
  (0x2F84E, 0x434A4B20434F4D5041544942494C495459204944454F47524150482D324638344520),
  (0x2F84F, 0x434A4B20434F4D5041544942494C495459204944454F47524150482D324638344620),
  (0x2F850, 0x434A4B20434F4D5041544942494C495459204944454F47524150482D324638353020),
  (0x2F851, 0x434A4B20434F4D5041544942494C495459204944454F47524150482D324638353120),
  (0x2F852, 0x434A4B20434F4D5041544942494C495459204944454F47524150482D324638353220),
  (0x2F853, 0x434A4B20434F4D5041544942494C495459204944454F47524150482D324638353320),
  (0x2F854, 0x434A4B20434F4D5041544942494C495459204944454F47524150482D324638353420),
  (0x2F855, 0x434A4B20434F4D5041544942494C495459204944454F47524150482D324638353520),
  (0x2F856, 0x434A4B20434F4D5041544942494C495459204944454F47524150482D324638353620),
  (0x2F857, 0x434A4B20434F4D5041544942494C495459204944454F47524150482D324638353720),
  (0x2F858, 0x434A4B20434F4D5041544942494C495459204944454F47524150482D324638353820),
  (0x2F859, 0x434A4B20434F4D5041544942494C495459204944454F47524150482D324638353920),
  (0x2F85A, 0x434A4B20434F4D5041544942494C495459204944454F47524150482D324638354120),
  (0x2F85B, 0x434A4B20434F4D5041544942494C495459204944454F47524150482D324638354220),
  (0x2F85C, 0x434A4B20434F4D5041544942494C495459204944454F47524150482D324638354320),
  (0x2F85D, 0x434A4B20434F4D5041544942494C495459204944454F47524150482D324638354420),
  (0x2F85E, 0x434A4B20434F4D5041544942494C495459204944454F47524150482D324638354520),
  (0x2F85F, 0x434A4B20434F4D5041544942494C495459204944454F47524150482D324638354620),
  (0x2F860, 0x434A4B20434F4D5041544942494C495459204944454F47524150482D324638363020),
  (0x2F861, 0x434A4B20434F4D5041544942494C495459204944454F47524150482D324638363120),
  (0x2F862, 0x434A4B20434F4D5041544942494C495459204944454F47524150482D324638363220),
  (0x2F863, 0x434A4B20434F4D5041544942494C495459204944454F47524150482D324638363320),
  (0x2F864, 0x434A4B20434F4D5041544942494C495459204944454F47524150482D324638363420),
  (0x2F865, 0x434A4B20434F4D5041544942494C495459204944454F47524150482D324638363520),
  (0x2F866, 0x434A4B20434F4D5041544942494C495459204944454F47524150482D324638363620),
  (0x2F867, 0x434A4B20434F4D5041544942494C495459204944454F47524150482D324638363720),
  (0x2F868, 0x434A4B20434F4D5041544942494C495459204944454F47524150482D324638363820),
  (0x2F869, 0x434A4B20434F4D5041544942494C495459204944454F47524150482D324638363920),
  (0x2F86A, 0x434A4B20434F4D5041544942494C495459204944454F47524150482D324638364120),
  (0x2F86B, 0x434A4B20434F4D5041544942494C495459204944454F47524150482D324638364220),
  (0x2F86C, 0x434A4B20434F4D5041544942494C495459204944454F47524150482D324638364320),
  (0x2F86D, 0x434A4B20434F4D5041544942494C495459204944454F47524150482D324638364420),
  (0x2F86E, 0x434A4B20434F4D5041544942494C495459204944454F47524150482D324638364520),
  (0x2F86F, 0x434A4B20434F4D5041544942494C495459204944454F47524150482D324638364620),
  (0x2F870, 0x434A4B20434F4D5041544942494C495459204944454F47524150482D324638373020),
  (0x2F871, 0x434A4B20434F4D5041544942494C495459204944454F47524150482D324638373120),
  (0x2F872, 0x434A4B20434F4D5041544942494C495459204944454F47524150482D324638373220),
  (0x2F873, 0x434A4B20434F4D5041544942494C495459204944454F47524150482D324638373320),
  (0x2F874, 0x434A4B20434F4D5041544942494C495459204944454F47524150482D324638373420),
  (0x2F875, 0x434A4B20434F4D5041544942494C495459204944454F47524150482D324638373520),
  (0x2F876, 0x434A4B20434F4D5041544942494C495459204944454F47524150482D324638373620),
  (0x2F877, 0x434A4B20434F4D5041544942494C495459204944454F47524150482D324638373720),
  (0x2F878, 0x434A4B20434F4D5041544942494C495459204944454F47524150482D324638373820),
  (0x2F879, 0x434A4B20434F4D5041544942494C495459204944454F47524150482D324638373920),
  (0x2F87A, 0x434A4B20434F4D5041544942494C495459204944454F47524150482D324638374120),
  (0x2F87B, 0x434A4B20434F4D5041544942494C495459204944454F47524150482D324638374220),
  (0x2F87C, 0x434A4B20434F4D5041544942494C495459204944454F47524150482D324638374320),
  (0x2F87D, 0x434A4B20434F4D5041544942494C495459204944454F47524150482D324638374420),
  (0x2F87E, 0x434A4B20434F4D5041544942494C495459204944454F47524150482D324638374520),
  (0x2F87F, 0x434A4B20434F4D5041544942494C495459204944454F47524150482D324638374620),
  (0x2F880, 0x434A4B20434F4D5041544942494C495459204944454F47524150482D324638383020),
  (0x2F881, 0x434A4B20434F4D5041544942494C495459204944454F47524150482D324638383120),
  (0x2F882, 0x434A4B20434F4D5041544942494C495459204944454F47524150482D324638383220),
  (0x2F883, 0x434A4B20434F4D5041544942494C495459204944454F47524150482D324638383320),
  (0x2F884, 0x434A4B20434F4D5041544942494C495459204944454F47524150482D324638383420),
  (0x2F885, 0x434A4B20434F4D5041544942494C495459204944454F47524150482D324638383520),
  (0x2F886, 0x434A4B20434F4D5041544942494C495459204944454F47524150482D324638383620),
  (0x2F887, 0x434A4B20434F4D5041544942494C495459204944454F47524150482D324638383720),
  (0x2F888, 0x434A4B20434F4D5041544942494C495459204944454F47524150482D324638383820),
  (0x2F889, 0x434A4B20434F4D5041544942494C495459204944454F47524150482D324638383920),
  (0x2F88A, 0x434A4B20434F4D5041544942494C495459204944454F47524150482D324638384120),
  (0x2F88B, 0x434A4B20434F4D5041544942494C495459204944454F47524150482D324638384220)]
def names_481 : List (Nat × Nat) := [
  (0x2F88C, 0x434A4B20434F4D5041544942494C495459204944454F47524150482D324638384320),
  (0x2F88D, 0x434A4B20434F4D5041544942494C495459204944454F47524150482D324638384420),
  (0x2F88E, 0x434A4B20434F4D5041544942494C495459204944454F47524150482D324638384520),
  (0x2F88F, 0x434A4B20434F4D5041544942494C495459204944454F47524150482D324638384620),
  (0x2F890, 0x434A4B20434F4D5041544942494C495459204944454F47524150482D324638393020),
  (0x2F891, 0x434A4B20434F4D5041544942494C495459204944454F47524150482D324638393120),
  (0x2F892, 0x434A4B20434F4D5041544942494C495459204944454F47524150482D324638393220),
  (0x2F893, 0x434A4B20434F4D5041544942494C495459204944454F47524150482D324638393320),
  (0x2F894, 0x434A4B20434F4D5041544942494C495459204944454F47524150482D324638393420),
  (0x2F895, 0x434A4B20434F4D5041544942494C495459204944454F47524150482D324638393520),
  (0x2F896, 0x434A4B20434F4D5041544942494C495459204944454F47524150482D324638393620),
  (0x2F897, 0x434A4B20434F4D5041544942494C495459204944454F47524150482D324638393720),
  (0x2F898, 0x434A4B20434F4D5041544942494C495459204944454F47524150482D324638393820),
  (0x2F899, 0x434A4B20434F4D5041544942494C495459204944454F47524150482D324638393920),
  (0x2F89A, 0x434A4B20434F4D5041544942494C495459204944454F47524150482D324638394120),
  (0x2F89B, 0x434A4B20434F4D5041544942494C495459204944454F47524150482D324638394220),
  (0x2F89C, 0x434A4B20434F4D5041544942494C495459204944454F47524150482D324638394320),
  (0x2F89D, 0x434A4B20434F4D5041544942494C495459204944454F47524150482D324638394420),
  (0x2F89E, 0x434A4B20434F4D5041544942494C495459204944454F47524150482D324638394520),
  (0x2F89F, 0x434A4B20434F4D5041544942494C495459204944454F47524150482D324638394620),
  (0x2F8A0, 0x434A4B20434F4D5041544942494C495459204944454F47524150482D324638413020),
  (0x2F8A1, 0x434A4B20434F4D5041544942494C495459204944454F47524150482D324638413120),
  (0x2F8A2, 0x434A4B20434F4D5041544942494C495459204944454F47524150482D324638413220),
  (0x2F8A3, 0x434A4B20434F4D5041544942494C495459204944454F47524150482D324638413320),
  (0x2F8A4, 0x434A4B20434F4D5041544942494C495459204944454F47524150482D324638413420),
  (0x2F8A5, 0x434A4B20434F4D5041544942494C495459204944454F47524150482D324638413520),
  (0x2F8A6, 0x434A4B20434F4D5041544942494C495459204944454F47524150482D324638413620),
  (0x2F8A7, 0x434A4B20434F4D5041544942494C495459204944454F47524150482D324638413720),
  (0x2F8A8, 0x434A4B20434F4D5041544942494C495459204944454F47524150482D324638413820),
  (0x2F8A9, 0x434A4B20434F4D5041544942494C495459204944454F47524150482D324638413920),
  (0x2F8AA, 0x434A4B20434F4D5041544942494C495459204944454F47524150482D324638414120),
  (0x2F8AB, 0x434A4B20434F4D5041544942494C495459204944454F47524150482D324638414220),
  (0x2F8AC, 0x434A4B20434F4D5041544942494C495459204944454F47524150482D324638414320),
  (0x2F8AD, 0x434A4B20434F4D5041544942494C495459204944454F47524150482D324638414420),
  (0x2F8AE, 0x434A4B20434F4D5041544942494C495459204944454F47524150482D324638414520),
  (0x2F8AF, 0x434A4B20434F4D5041544942494C495459204944454F47524150482D324638414620),
  (0x2F8B0, 0x434A4B20434F4D5041544942494C495459204944454F47524150482D324638423020),
  (0x2F8B1, 0x434A4B20434F4D5041544942494C495459204944454F47524150482D324638423120),
  (0x2F8B2, 0x434A4B20434F4D5041544942494C495459204944454F47524150482D324638423220),
  (0x2F8B3, 0x434A4B20434F4D5041544942494C495459204944454F47524150482D324638423320),
  (0x2F8B4, 0x434A4B20434F4D5041544942494C495459204944454F47524150482D324638423420),
  (0x2F8B5, 0x434A4B20434F4D5041544942494C495459204944454F47524150482D324638423520),
  (0x2F8B6, 0x434A4B20434F4D5041544942494C495459204944454F47524150482D324638423620),
  (0x2F8B7, 0x434A4B20434F4D5041544942494C495459204944454F47524150482D324638423720),
  (0x2F8B8, 0x434A4B20434F4D5041544942494C495459204944454F47524150482D324638423820),
  (0x2F8B9, 0x434A4B20434F4D5041544942494C495459204944454F47524150482D324638423920),
  (0x2F8BA, 0x434A4B20434F4D5041544942494C495459204944454F47524150482D324638424120),
  (0x2F8BB, 0x434A4B20434F4D5041544942494C495459204944454F47524150482D324638424220),
  (0x2F8BC, 0x434A4B20434F4D5041544942494C495459204944454F47524150482D324638424320),
  (0x2F8BD, 0x434A4B20434F4D5041544942494C495459204944454F47524150482D324638424420),
  (0x2F8BE, 0x434A4B20434F4D5041544942494C495459204944454F47524150482D324638424520),
  (0x2F8BF, 0x434A4B20434F4D5041544942494C495459204944454F47524150482D324638424620),
  (0x2F8C0, 0x434A4B20434F4D5041544942494C495459204944454F47524150482D324638433020),
  (0x2F8C1, 0x434A4B20434F4D5041544942494C495459204944454F47524150482D324638433120),
  (0x2F8C2, 0x434A4B20434F4D5041544942494C495459204944454F47524150482D324638433220),
  (0x2F8C3, 0x434A4B20434F4D5041544942494C495459204944454F47524150482D324638433320),
  (0x2F8C4, 0x434A4B20434F4D5041544942494C495459204944454F47524150482D324638433420),
  (0x2F8C5, 0x434A4B20434F4D5041544942494C495459204944454F47524150482D324638433520),
  (0x2F8C6, 0x434A4B20434F4D5041544942494C495459204944454F47524150482D324638433620),
  (0x2F8C7, 0x434A4B20434F4D5041544942494C495459204944454F47524150482D324638433720),
  (0x2F8C8, 0x434A4B20434F4D5041544942494C495459204944454F47524150482D324638433820),
  (0x2F8C9, 0x434A4B20434F4D5041544942494C495459204944454F47524150482D324638433920),
  (0x2F8CA, 0x434A4B20434F4D5041544942494C495459204944454F47524150482D324638434120),
  (0x2F8CB, 0x434A4B20434F4D5041544942494C495459204944454F47524150482D324638434220)]
def names_482 : List (Nat × Nat) := [
  (0x2F8CC, 0x434A4B20434F4D5041544942494C495459204944454F47524150482D324638434320),
  (0x2F8CD, 0x434A4B20434F4D5041544942494C495459204944454F47524150482D324638434420),
  (0x2F8CE, 0x434A4B20434F4D5041544942494C495459204944454F47524150482D324638434520),
  (0x2F8CF, 0x434A4B20434F4D5041544942494C495459204944454F47524150482D324638434620),
  (0x2F8D0, 0x434A4B20434F4D5041544942494C495459204944454F47524150482D324638443020),
  (0x2F8D1, 0x434A4B20434F4D5041544942494C495459204944454F47524150482D324638443120),
  (0x2F8D2, 0x434A4B20434F4D5041544942494C495459204944454F47524150482D324638443220),
  (0x2F8D3, 0x434A4B20434F4D5041544942494C495459204944454F47524150482D324638443320),
  (0x2F8D4, 0x434A4B20434F4D5041544942494C495459204944454F47524150482D324638443420),
  (0x2F8D5, 0x434A4B20434F4D5041544942494C495459204944454F47524150482D324638443520),
  (0x2F8D6, 0x434A4B20434F4D5041544942494C495459204944454F47524150482D324638443620),
  (0x2F8D7, 0x434A4B20434F4D5041544942494C495459204944454F47524150482D324638443720),
  (0x2F8D8, 0x434A4B20434F4D5041544942494C495459204944454F47524150482D324638443820),
  (0x2F8D9, 0x434A4B20434F4D5041544942494C495459204944454F47524150482D324638443920),
  (0x2F8DA, 0x434A4B20434F4D5041544942494C495459204944454F47524150482D324638444120),
  (0x2F8DB, 0x434A4B20434F4D5041544942494C495459204944454F47524150482D324638444220),
  (0x2F8DC, 0x434A4B20434F4D5041544942494C495459204944454F47524150482D324638444320),
  (0x2F8DD, 0x434A4B20434F4D5041544942494C495459204944454F47524150482D324638444420),
  (0x2F8DE, 0x434A4B20434F4D5041544942494C495459204944454F47524150482D324638444520),
  (0x2F8DF, 0x434A4B20434F4D5041544942494C495459204944454F47524150482D324638444620),
  (0x2F8E0, 0x434A4B20434F4D5041544942494C495459204944454F47524150482D324638453020),
  (0x2F8E1, 0x434A4B20434F4D5041544942494C495459204944454F47524150482D324638453120),
  (0x2F8E2, 0x434A4B20434F4D5041544942494C495459204944454F47524150482D324638453220),
  (0x2F8E3, 0x434A4B20434F4D5041544942494C495459204944454F47524150482D324638453320),
  (0x2F8E4, 0x434A4B20434F4D5041544942494C495459204944454F47524150482D324638453420),
  (0x2F8E5, 0x434A4B20434F4D5041544942494C495459204944454F47524150482D324638453520),
  (0x2F8E6, 0x434A4B20434F4D5041544942494C495459204944454F47524150482D324638453620),
  (0x2F8E7, 0x434A4B20434F4D5041544942494C495459204944454F47524150482D324638453720),
  (0x2F8E8, 0x434A4B20434F4D5041544942494C495459204944454F47524150482D324638453820),
  (0x2F8E9, 0x434A4B20434F4D5041544942494C495459204944454F47524150482D324638453920),
  (0x2F8EA, 0x434A4B20434F4D5041544942494C495459204944454F47524150482D324638454120),
  (0x2F8EB, 0x434A4B20434F4D5041544942494C495459204944454F47524150482D324638454220),
  (0x2F8EC, 0x434A4B20434F4D5041544942494C495459204944454F47524150482D324638454320),
  (0x2F8ED, 0x434A4B20434F4D5041544942494C495459204944454F47524150482D324638454420),
  (0x2F8EE, 0x434A4B20434F4D5041544942494C495459204944454F47524150482D324638454520),
  (0x2F8EF, 0x434A4B20434F4D5041544942494C495459204944454F47524150482D324638454620),
  (0x2F8F0, 0x434A4B20434F4D5041544942494C495459204944454F47524150482D324638463020),
  (0x2F8F1, 0x434A4B20434F4D5041544942494C495459204944454F47524150482D324638463120),
  (0x2F8F2, 0x434A4B20434F4D5041544942494C495459204944454F47524150482D324638463220),
  (0x2F8F3, 0x434A4B20434F4D5041544942494C495459204944454F47524150482D324638463320),
  (0x2F8F4, 0x434A4B20434F4D5041544942494C495459204944454F47524150482D324638463420),
  (0x2F8F5, 0x434A4B20434F4D5041544942494C495459204944454F47524150482D324638463520),
  (0x2F8F6, 0x434A4B20434F4D5041544942494C495459204944454F47524150482D324638463620),
  (0x2F8F7, 0x434A4B20434F4D5041544942494C495459204944454F47524150482D324638463720),
  (0x2F8F8, 0x434A4B20434F4D5041544942494C495459204944454F47524150482D324638463820),
  (0x2F8F9, 0x434A4B20434F4D5041544942494C495459204944454F47524150482D324638463920),
  (0x2F8FA, 0x434A4B20434F4D5041544942494C495459204944454F47524150482D324638464120),
  (0x2F8FB, 0x434A4B20434F4D5041544942494C495459204944454F47524150482D324638464220),
  (0x2F8FC, 0x434A4B20434F4D5041544942494C495459204944454F47524150482D324638464320),
  (0x2F8FD, 0x434A4B20434F4D5041544942494C495459204944454F47524150482D324638464420),
  (0x2F8FE, 0x434A4B20434F4D5041544942494C495459204944454F47524150482D324638464520),
  (0x2F8FF, 0x434A4B20434F4D5041544942494C495459204944454F47524150482D324638464620),
  (0x2F900, 0x434A4B20434F4D5041544942494C495459204944454F47524150482D324639303020),
  (0x2F901, 0x434A4B20434F4D5041544942494C495459204944454F47524150482D324639303120),
  (0x2F902, 0x434A4B20434F4D5041544942494C495459204944454F47524150482D324639303220),
  (0x2F903, 0x434A4B20434F4D5041544942494C495459204944454F47524150482D324639303320),
  (0x2F904, 0x434A4B20434F4D5041544942494C495459204944454F47524150482D324639303420),
  (0x2F905, 0x434A4B20434F4D5041544942494C495459204944454F47524150482D324639303520),
  (0x2F906, 0x434A4B20434F4D5041544942494C495459204944454F47524150482D324639303620),
  (0x2F907, 0x434A4B20434F4D5041544942494C495459204944454F47524150482D324639303720),
  (0x2F908, 0x434A4B20434F4D5041544942494C495459204944454F47524150482D324639303820),
  (0x2F909, 0x434A4B20434F4D5041544942494C495459204944454F47524150482D324639303920),
  (0x2F90A, 0x434A4B20434F4D5041544942494C495459204944454F47524150482D324639304120),
  (0x2F90B, 0x434A4B20434F4D5041544942494C495459204944454F47524150482D324639304220)]
def names_483 : List (Nat × Nat) := [
  (0x2F90C, 0x434A4B20434F4D5041544942494C495459204944454F47524150482D324639304320),
  (0x2F90D, 0x434A4B20434F4D5041544942494C495459204944454F47524150482D324639304420),
  (0x2F90E, 0x434A4B20434F4D5041544942494C495459204944454F47524150482D324639304520),
  (0x2F90F, 0x434A4B20434F4D5041544942494C495459204944454F47524150482D324639304620),
  (0x2F910, 0x434A4B20434F4D5041544942494C495459204944454F47524150482D324639313020),
  (0x2F911, 0x434A4B20434F4D5041544942494C495459204944454F47524150482D324639313120),
  (0x2F912, 0x434A4B20434F4D5041544942494C495459204944454F47524150482D324639313220),
  (0x2F913, 0x434A4B20434F4D5041544942494C495459204944454F47524150482D324639313320),
  (0x2F914, 0x434A4B20434F4D5041544942494C495459204944454F47524150482D324639313420),
  (0x2F915, 0x434A4B20434F4D5041544942494C495459204944454F47524150482D324639313520),
  (0x2F916, 0x434A4B20434F4D5041544942494C495459204944454F47524150482D324639313620),
  (0x2F917, 0x434A4B20434F4D5041544942494C495459204944454F47524150482D324639313720),
  (0x2F918, 0x434A4B20434F4D5041544942494C495459204944454F47524150482D324639313820),
  (0x2F919, 0x434A4B20434F4D5041544942494C495459204944454F47524150482D324639313920),
  (0x2F91A, 0x434A4B20434F4D5041544942494C495459204944454F47524150482D324639314120),
  (0x2F91B, 0x434A4B20434F4D5041544942494C495459204944454F47524150482D324639314220),
  (0x2F91C, 0x434A4B20434F4D5041544942494C495459204944454F47524150482D324639314320),
  (0x2F91D, 0x434A4B20434F4D5041544942494C495459204944454F47524150482D324639314420),
  (0x2F91E, 0x434A4B20434F4D5041544942494C495459204944454F47524150482D324639314520),
  (0x2F91F, 0x434A4B20434F4D5041544942494C495459204944454F47524150482D324639314620),
  (0x2F920, 0x434A4B20434F4D5041544942494C495459204944454F47524150482D324639323020),
  (0x2F921, 0x434A4B20434F4D5041544942494C495459204944454F47524150482D324639323120),
  (0x2F922, 0x434A4B20434F4D5041544942494C495459204944454F47524150482D324639323220),
  (0x2F923, 0x434A4B20434F4D5041544942494C495459204944454F47524150482D324639323320),
  (0x2F924, 0x434A4B20434F4D5041544942494C495459204944454F47524150482D324639323420),
  (0x2F925, 0x434A4B20434F4D5041544942494C495459204944454F47524150482D324639323520),
  (0x2F926, 0x434A4B20434F4D5041544942494C495459204944454F47524150482D324639323620),
  (0x2F927, 0x434A4B20434F4D5041544942494C495459204944454F47524150482D324639323720),
  (0x2F928, 0x434A4B20434F4D5041544942494C495459204944454F47524150482D324639323820),
  (0x2F929, 0x434A4B20434F4D5041544942494C495459204944454F47524150482D324639323920),
  (0x2F92A, 0x434A4B20434F4D5041544942494C495459204944454F47524150482D324639324120),
  (0x2F92B, 0x434A4B20434F4D5041544942494C495459204944454F47524150482D324639324220),
  (0x2F92C, 0x434A4B20434F4D5041544942494C495459204944454F47524150482D324639324320),
  (0x2F92D, 0x434A4B20434F4D5041544942494C495459204944454F47524150482D324639324420),
  (0x2F92E, 0x434A4B20434F4D5041544942494C495459204944454F47524150482D324639324520),
  (0x2F92F, 0x434A4B20434F4D5041544942494C495459204944454F47524150482D324639324620),
  (0x2F930, 0x434A4B20434F4D5041544942494C495459204944454F47524150482D324639333020),
  (0x2F931, 0x434A4B20434F4D5041544942494C495459204944454F47524150482D324639333120),
  (0x2F932, 0x434A4B20434F4D5041544942494C495459204944454F47524150482D324639333220),
  (0x2F933, 0x434A4B20434F4D5041544942494C495459204944454F47524150482D324639333320),
  (0x2F934, 0x434A4B20434F4D5041544942494C495459204944454F47524150482D324639333420),
  (0x2F935, 0x434A4B20434F4D5041544942494C495459204944454F47524150482D324639333520),
  (0x2F936, 0x434A4B20434F4D5041544942494C495459204944454F47524150482D324639333620),
  (0x2F937, 0x434A4B20434F4D5041544942494C495459204944454F47524150482D324639333720),
  (0x2F938, 0x434A4B20434F4D5041544942494C495459204944454F47524150482D324639333820),
  (0x2F939, 0x434A4B20434F4D5041544942494C495459204944454F47524150482D324639333920),
  (0x2F93A, 0x434A4B20434F4D5041544942494C495459204944454F47524150482D324639334120),
  (0x2F93B, 0x434A4B20434F4D5041544942494C495459204944454F47524150482D324639334220),
  (0x2F93C, 0x434A4B20434F4D5041544942494C495459204944454F47524150482D324639334320),
  (0x2F93D, 0x434A4B20434F4D5041544942494C495459204944454F47524150482D324639334420),
  (0x2F93E, 0x434A4B20434F4D5041544942494C495459204944454F47524150482D324639334520),
  (0x2F93F, 0x434A4B20434F4D5041544942494C495459204944454F47524150482D324639334620),
  (0x2F940, 0x434A4B20434F4D5041544942494C495459204944454F47524150482D324639343020),
  (0x2F941, 0x434A4B20434F4D5041544942494C495459204944454F47524150482D324639343120),
  (0x2F942, 0x434A4B20434F4D5041544942494C495459204944454F47524150482D324639343220),
  (0x2F943, 0x434A4B20434F4D5041544942494C495459204944454F47524150482D324639343320),
  (0x2F944, 0x434A4B20434F4D5041544942494C495459204944454F47524150482D324639343420),
  (0x2F945, 0x434A4B20434F4D5041544942494C495459204944454F47524150482D324639343520),
  (0x2F946, 0x434A4B20434F4D5041544942494C495459204944454F47524150482D324639343620),
  (0x2F947, 0x434A4B20434F4D5041544942494C495459204944454F47524150482D324639343720),
  (0x2F948, 0x434A4B20434F4D5041544942494C495459204944454F47524150482D324639343820),
  (0x2F949, 0x434A4B20434F4D5041544942494C495459204944454F47524150482D324639343920),
  (0x2F94A, 0x434A4B20434F4D5041544942494C495459204944454F47524150482D324639344120),
  (0x2F94B, 0x434A4B20434F4D5041544942494C495459204944454F47524150482D324639344220)]
def names_484 : List (Nat × Nat) := [
  (0x2F94C, 0x434A4B20434F4D5041544942494C495459204944454F47524150482D324639344320),
  (0x2F94D, 0x434A4B20434F4D5041544942494C495459204944454F47524150482D324639344420),
  (0x2F94E, 0x434A4B20434F4D5041544942494C495459204944454F47524150482D324639344520),
  (0x2F94F, 0x434A4B20434F4D5041544942494C495459204944454F47524150482D324639344620),
  (0x2F950, 0x434A4B20434F4D5041544942494C495459204944454F47524150482D324639353020),
  (0x2F951, 0x434A4B20434F4D5041544942494C495459204944454F47524150482D324639353120),
  (0x2F952, 0x434A4B20434F4D5041544942494C495459204944454F47524150482D324639353220),
  (0x2F953, 0x434A4B20434F4D5041544942494C495459204944454F47524150482D324639353320),
  (0x2F954, 0x434A4B20434F4D5041544942494C495459204944454F47524150482D324639353420),
  (0x2F955, 0x434A4B20434F4D5041544942494C495459204944454F47524150482D324639353520),
  (0x2F956, 0x434A4B20434F4D5041544942494C495459204944454F47524150482D324639353620),
  (0x2F957, 0x434A4B20434F4D5041544942494C495459204944454F47524150482D324639353720),
  (0x2F958, 0x434A4B20434F4D5041544942494C495459204944454F47524150482D324639353820),
  (0x2F959, 0x434A4B20434F4D5041544942494C495459204944454F47524150482D324639353920),
  (0x2F95A, 0x434A4B20434F4D5041544942494C495459204944454F47524150482D324639354120),
  (0x2F95B, 0x434A4B20434F4D5041544942494C495459204944454F47524150482D324639354220),
  (0x2F95C, 0x434A4B20434F4D5041544942494C495459204944454F47524150482D324639354320),
  (0x2F95D, 0x434A4B20434F4D5041544942494C495459204944454F47524150482D324639354420),
  (0x2F95E, 0x434A4B20434F4D5041544942494C495459204944454F47524150482D324639354520),
  (0x2F95F, 0x434A4B20434F4D5041544942494C495459204944454F47524150482D324639354620),
  (0x2F960, 0x434A4B20434F4D5041544942494C495459204944454F47524150482D324639363020),
  (0x2F961, 0x434A4B20434F4D5041544942494C495459204944454F47524150482D324639363120),
  (0x2F962, 0x434A4B20434F4D5041544942494C495459204944454F47524150482D324639363220),
  (0x2F963, 0x434A4B20434F4D5041544942494C495459204944454F47524150482D324639363320),
  (0x2F964, 0x434A4B20434F4D5041544942494C495459204944454F47524150482D324639363420),
  (0x2F965, 0x434A4B20434F4D5041544942494C495459204944454F47524150482D324639363520),
  (0x2F966, 0x434A4B20434F4D5041544942494C495459204944454F47524150482D324639363620),
  (0x2F967, 0x434A4B20434F4D5041544942494C495459204944454F47524150482D324639363720),
  (0x2F968, 0x434A4B20434F4D5041544942494C495459204944454F47524150482D324639363820),
  (0x2F969, 0x434A4B20434F4D5041544942494C495459204944454F47524150482D324639363920),
  (0x2F96A, 0x434A4B20434F4D5041544942494C495459204944454F47524150482D324639364120),
  (0x2F96B, 0x434A4B20434F4D5041544942494C495459204944454F47524150482D324639364220),
  (0x2F96C, 0x434A4B20434F4D5041544942494C495459204944454F47524150482D324639364320),
  (0x2F96D, 0x434A4B20434F4D5041544942494C495459204944454F47524150482D324639364420),
  (0x2F96E, 0x434A4B20434F4D5041544942494C495459204944454F47524150482D324639364520),
  (0x2F96F, 0x434A4B20434F4D5041544942494C495459204944454F47524150482D324639364620),
  (0x2F970, 0x434A4B20434F4D5041544942494C495459204944454F47524150482D324639373020),
  (0x2F971, 0x434A4B20434F4D5041544942494C495459204944454F47524150482D324639373120),
  (0x2F972, 0x434A4B20434F4D5041544942494C495459204944454F47524150482D324639373220),
  (0x2F973, 0x434A4B20434F4D5041544942494C495459204944454F47524150482D324639373320),
  (0x2F974, 0x434A4B20434F4D5041544942494C495459204944454F47524150482D324639373420),
  (0x2F975, 0x434A4B20434F4D5041544942494C495459204944454F47524150482D324639373520),
  (0x2F976, 0x434A4B20434F4D5041544942494C495459204944454F47524150482D324639373620),
  (0x2F977, 0x434A4B20434F4D5041544942494C495459204944454F47524150482D324639373720),
  (0x2F978, 0x434A4B20434F4D5041544942494C495459204944454F47524150482D324639373820),
  (0x2F979, 0x434A4B20434F4D5041544942494C495459204944454F47524150482D324639373920),
  (0x2F97A, 0x434A4B20434F4D5041544942494C495459204944454F47524150482D324639374120),
  (0x2F97B, 0x434A4B20434F4D5041544942494C495459204944454F47524150482D324639374220),
  (0x2F97C, 0x434A4B20434F4D5041544942494C495459204944454F47524150482D324639374320),
  (0x2F97D, 0x434A4B20434F4D5041544942494C495459204944454F47524150482D324639374420),
  (0x2F97E, 0x434A4B20434F4D5041544942494C495459204944454F47524150482D324639374520),
  (0x2F97F, 0x434A4B20434F4D5041544942494C495459204944454F47524150482D324639374620),
  (0x2F980, 0x434A4B20434F4D5041544942494C495459204944454F47524150482D324639383020),
  (0x2F981, 0x434A4B20434F4D5041544942494C495459204944454F47524150482D324639383120),
  (0x2F982, 0x434A4B20434F4D5041544942494C495459204944454F47524150482D324639383220),
  (0x2F983, 0x434A4B20434F4D5041544942494C495459204944454F47524150482D324639383320),
  (0x2F984, 0x434A4B20434F4D5041544942494C495459204944454F47524150482D324639383420),
  (0x2F985, 0x434A4B20434F4D5041544942494C495459204944454F47524150482D324639383520),
  (0x2F986, 0x434A4B20434F4D5041544942494C495459204944454F47524150482D324639383620),
  (0x2F987, 0x434A4B20434F4D5041544942494C495459204944454F47524150482D324639383720),
  (0x2F988, 0x434A4B20434F4D5041544942494C495459204944454F47524150482D324639383820),
  (0x2F989, 0x434A4B20434F4D5041544942494C495459204944454F47524150482D324639383920),
  (0x2F98A, 0x434A4B20434F4D5041544942494C495459204944454F47524150482D324639384120),
  (0x2F98B, 0x434A4B20434F4D5041544942494C495459204944454F47524150482D324639384220)]
def names_485 : List (Nat × Nat) := [
  (0x2F98C, 0x434A4B20434F4D5041544942494C495459204944454F47524150482D324639384320),
  (0x2F98D, 0x434A4B20434F4D5041544942494C495459204944454F47524150482D324639384420),
  (0x2F98E, 0x434A4B20434F4D5041544942494C495459204944454F47524150482D324639384520),
  (0x2F98F, 0x434A4B20434F4D5041544942494C495459204944454F47524150482D324639384620),
  (0x2F990, 0x434A4B20434F4D5041544942494C495459204944454F47524150482D324639393020),
  (0x2F991, 0x434A4B20434F4D5041544942494C495459204944454F47524150482D324639393120),
  (0x2F992, 0x434A4B20434F4D5041544942494C495459204944454F47524150482D324639393220),
  (0x2F993, 0x434A4B20434F4D5041544942494C495459204944454F47524150482D324639393320),
  (0x2F994, 0x434A4B20434F4D5041544942494C495459204944454F47524150482D324639393420),
  (0x2F995, 0x434A4B20434F4D5041544942494C495459204944454F47524150482D324639393520),
  (0x2F996, 0x434A4B20434F4D5041544942494C495459204944454F47524150482D324639393620),
  (0x2F997, 0x434A4B20434F4D5041544942494C495459204944454F47524150482D324639393720),
  (0x2F998, 0x434A4B20434F4D5041544942494C495459204944454F47524150482D324639393820),
  (0x2F999, 0x434A4B20434F4D5041544942494C495459204944454F47524150482D324639393920),
  (0x2F99A, 0x434A4B20434F4D5041544942494C495459204944454F47524150482D324639394120),
  (0x2F99B, 0x434A4B20434F4D5041544942494C495459204944454F47524150482D324639394220),
  (0x2F99C, 0x434A4B20434F4D5041544942494C495459204944454F47524150482D324639394320),
  (0x2F99D, 0x434A4B20434F4D5041544942494C495459204944454F47524150482D324639394420),
  (0x2F99E, 0x434A4B20434F4D5041544942494C495459204944454F47524150482D324639394520),
  (0x2F99F, 0x434A4B20434F4D5041544942494C495459204944454F47524150482D324639394620),
  (0x2F9A0, 0x434A4B20434F4D5041544942494C495459204944454F47524150482D324639413020),
  (0x2F9A1, 0x434A4B20434F4D5041544942494C495459204944454F47524150482D324639413120),
  (0x2F9A2, 0x434A4B20434F4D5041544942494C495459204944454F47524150482D324639413220),
  (0x2F9A3, 0x434A4B20434F4D5041544942494C495459204944454F47524150482D324639413320),
  (0x2F9A4, 0x434A4B20434F4D5041544942494C495459204944454F47524150482D324639413420),
  (0x2F9A5, 0x434A4B20434F4D5041544942494C495459204944454F47524150482D324639413520),
  (0x2F9A6, 0x434A4B20434F4D5041544942494C495459204944454F47524150482D324639413620),
  (0x2F9A7, 0x434A4B20434F4D5041544942494C495459204944454F47524150482D324639413720),
  (0x2F9A8, 0x434A4B20434F4D5041544942494C495459204944454F47524150482D324639413820),
  (0x2F9A9, 0x434A4B20434F4D5041544942494C495459204944454F47524150482D324639413920),
  (0x2F9AA, 0x434A4B20434F4D5041544942494C495459204944454F47524150482D324639414120),
  (0x2F9AB, 0x434A4B20434F4D5041544942494C495459204944454F47524150482D324639414220),
  (0x2F9AC, 0x434A4B20434F4D5041544942494C495459204944454F47524150482D324639414320),
  (0x2F9AD, 0x434A4B20434F4D5041544942494C495459204944454F47524150482D324639414420),
  (0x2F9AE, 0x434A4B20434F4D5041544942494C495459204944454F47524150482D324639414520),
  (0x2F9AF, 0x434A4B20434F4D5041544942494C495459204944454F47524150482D324639414620),
  (0x2F9B0, 0x434A4B20434F4D5041544942494C495459204944454F47524150482D324639423020),
  (0x2F9B1, 0x434A4B20434F4D5041544942494C495459204944454F47524150482D324639423120),
  (0x2F9B2, 0x434A4B20434F4D5041544942494C495459204944454F47524150482D324639423220),
  (0x2F9B3, 0x434A4B20434F4D5041544942494C495459204944454F47524150482D324639423320),
  (0x2F9B4, 0x434A4B20434F4D5041544942494C495459204944454F47524150482D324639423420),
  (0x2F9B5, 0x434A4B20434F4D5041544942494C495459204944454F47524150482D324639423520),
  (0x2F9B6, 0x434A4B20434F4D5041544942494C495459204944454F47524150482D324639423620),
  (0x2F9B7, 0x434A4B20434F4D5041544942494C495459204944454F47524150482D324639423720),
  (0x2F9B8, 0x434A4B20434F4D5041544942494C495459204944454F47524150482D324639423820),
  (0x2F9B9, 0x434A4B20434F4D5041544942494C495459204944454F47524150482D324639423920),
  (0x2F9BA, 0x434A4B20434F4D5041544942494C495459204944454F47524150482D324639424120),
  (0x2F9BB, 0x434A4B20434F4D5041544942494C495459204944454F47524150482D324639424220),
  (0x2F9BC, 0x434A4B20434F4D5041544942494C495459204944454F47524150482D324639424320),
  (0x2F9BD, 0x434A4B20434F4D5041544942494C495459204944454F47524150482D324639424420),
  (0x2F9BE, 0x434A4B20434F4D5041544942494C495459204944454F47524150482D324639424520),
  (0x2F9BF, 0x434A4B20434F4D5041544942494C495459204944454F47524150482D324639424620),
  (0x2F9C0, 0x434A4B20434F4D5041544942494C495459204944454F47524150482D324639433020),
  (0x2F9C1, 0x434A4B20434F4D5041544942494C495459204944454F47524150482D324639433120),
  (0x2F9C2, 0x434A4B20434F4D5041544942494C495459204944454F47524150482D324639433220),
  (0x2F9C3, 0x434A4B20434F4D5041544942494C495459204944454F47524150482D324639433320),
  (0x2F9C4, 0x434A4B20434F4D5041544942494C495459204944454F47524150482D324639433420),
  (0x2F9C5, 0x434A4B20434F4D5041544942494C495459204944454F47524150482D324639433520),
  (0x2F9C6, 0x434A4B20434F4D5041544942494C495459204944454F47524150482D324639433620),
  (0x2F9C7, 0x434A4B20434F4D5041544942494C495459204944454F47524150482D324639433720),
  (0x2F9C8, 0x434A4B20434F4D5041544942494C495459204944454F47524150482D324639433820),
  (0x2F9C9, 0x434A4B20434F4D5041544942494C495459204944454F47524150482D324639433920),
  (0x2F9CA, 0x434A4B20434F4D5041544942494C495459204944454F47524150482D324639434120),
  (0x2F9CB, 0x434A4B20434F4D5041544942494C495459204944454F47524150482D324639434220)]
def names_486 : List (Nat × Nat) := [
  (0x2F9CC, 0x434A4B20434F4D5041544942494C495459204944454F47524150482D324639434320),
  (0x2F9CD, 0x434A4B20434F4D5041544942494C495459204944454F47524150482D324639434420),
  (0x2F9CE, 0x434A4B20434F4D5041544942494C495459204944454F47524150482D324639434520),
  (0x2F9CF, 0x434A4B20434F4D5041544942494C495459204944454F47524150482D324639434620),
  (0x2F9D0, 0x434A4B20434F4D5041544942494C495459204944454F47524150482D324639443020),
  (0x2F9D1, 0x434A4B20434F4D5041544942494C495459204944454F47524150482D324639443120),
  (0x2F9D2, 0x434A4B20434F4D5041544942494C495459204944454F47524150482D324639443220),
  (0x2F9D3, 0x434A4B20434F4D5041544942494C495459204944454F47524150482D324639443320),
  (0x2F9D4, 0x434A4B20434F4D5041544942494C495459204944454F47524150482D324639443420),
  (0x2F9D5, 0x434A4B20434F4D5041544942494C495459204944454F47524150482D324639443520),
  (0x2F9D6, 0x434A4B20434F4D5041544942494C495459204944454F47524150482D324639443620),
  (0x2F9D7, 0x434A4B20434F4D5041544942494C495459204944454F47524150482D324639443720),
  (0x2F9D8, 0x434A4B20434F4D5041544942494C495459204944454F47524150482D324639443820),
  (0x2F9D9, 0x434A4B20434F4D5041544942494C495459204944454F47524150482D324639443920),
  (0x2F9DA, 0x434A4B20434F4D5041544942494C495459204944454F47524150482D324639444120),
  (0x2F9DB, 0x434A4B20434F4D5041544942494C495459204944454F47524150482D324639444220),
  (0x2F9DC, 0x434A4B20434F4D5041544942494C495459204944454F47524150482D324639444320),
  (0x2F9DD, 0x434A4B20434F4D5041544942494C495459204944454F47524150482D324639444420),
  (0x2F9DE, 0x434A4B20434F4D5041544942494C495459204944454F47524150482D324639444520),
  (0x2F9DF, 0x434A4B20434F4D5041544942494C495459204944454F47524150482D324639444620),
  (0x2F9E0, 0x434A4B20434F4D5041544942494C495459204944454F47524150482D324639453020),
  (0x2F9E1, 0x434A4B20434F4D5041544942494C495459204944454F47524150482D324639453120),
  (0x2F9E2, 0x434A4B20434F4D5041544942494C495459204944454F47524150482D324639453220),
  (0x2F9E3, 0x434A4B20434F4D5041544942494C495459204944454F47524150482D324639453320),
  (0x2F9E4, 0x434A4B20434F4D5041544942494C495459204944454F47524150482D324639453420),
  (0x2F9E5, 0x434A4B20434F4D5041544942494C495459204944454F47524150482D324639453520),
  (0x2F9E6, 0x434A4B20434F4D5041544942494C495459204944454F47524150482D324639453620),
  (0x2F9E7, 0x434A4B20434F4D5041544942494C495459204944454F47524150482D324639453720),
  (0x2F9E8, 0x434A4B20434F4D5041544942494C495459204944454F47524150482D324639453820),
  (0x2F9E9, 0x434A4B20434F4D5041544942494C495459204944454F47524150482D324639453920),
  (0x2F9EA, 0x434A4B20434F4D5041544942494C495459204944454F47524150482D324639454120),
  (0x2F9EB, 0x434A4B20434F4D5041544942494C495459204944454F47524150482D324639454220),
  (0x2F9EC, 0x434A4B20434F4D5041544942494C495459204944454F47524150482D324639454320),
  (0x2F9ED, 0x434A4B20434F4D5041544942494C495459204944454F47524150482D324639454420),
  (0x2F9EE, 0x434A4B20434F4D5041544942494C495459204944454F47524150482D324639454520),
  (0x2F9EF, 0x434A4B20434F4D5041544942494C495459204944454F47524150482D324639454620),
  (0x2F9F0, 0x434A4B20434F4D5041544942494C495459204944454F47524150482D324639463020),
  (0x2F9F1, 0x434A4B20434F4D5041544942494C495459204944454F47524150482D324639463120),
  (0x2F9F2, 0x434A4B20434F4D5041544942494C495459204944454F47524150482D324639463220),
  (0x2F9F3, 0x434A4B20434F4D5041544942494C495459204944454F47524150482D324639463320),
  (0x2F9F4, 0x434A4B20434F4D5041544942494C495459204944454F47524150482D324639463420),
  (0x2F9F5, 0x434A4B20434F4D5041544942494C495459204944454F47524150482D324639463520),
  (0x2F9F6, 0x434A4B20434F4D5041544942494C495459204944454F47524150482D324639463620),
  (0x2F9F7, 0x434A4B20434F4D5041544942494C495459204944454F47524150482D324639463720),
  (0x2F9F8, 0x434A4B20434F4D5041544942494C495459204944454F47524150482D324639463820),
  (0x2F9F9, 0x434A4B20434F4D5041544942494C495459204944454F47524150482D324639463920),
  (0x2F9FA, 0x434A4B20434F4D5041544942494C495459204944454F47524150482D324639464120),
  (0x2F9FB, 0x434A4B20434F4D5041544942494C495459204944454F47524150482D324639464220),
  (0x2F9FC, 0x434A4B20434F4D5041544942494C495459204944454F47524150482D324639464320),
  (0x2F9FD, 0x434A4B20434F4D5041544942494C495459204944454F47524150482D324639464420),
  (0x2F9FE, 0x434A4B20434F4D5041544942494C495459204944454F47524150482D324639464520),
  (0x2F9FF, 0x434A4B20434F4D5041544942494C495459204944454F47524150482D324639464620),
  (0x2FA00, 0x434A4B20434F4D5041544942494C495459204944454F47524150482D324641303020),
  (0x2FA01, 0x434A4B20434F4D5041544942494C495459204944454F47524150482D324641303120),
  (0x2FA02, 0x434A4B20434F4D5041544942494C495459204944454F47524150482D324641303220),
  (0x2FA03, 0x434A4B20434F4D5041544942494C495459204944454F47524150482D324641303320),
  (0x2FA04, 0x434A4B20434F4D5041544942494C495459204944454F47524150482D324641303420),
  (0x2FA05, 0x434A4B20434F4D5041544942494C495459204944454F47524150482D324641303520),
  (0x2FA06, 0x434A4B20434F4D5041544942494C495459204944454F47524150482D324641303620),
  (0x2FA07, 0x434A4B20434F4D5041544942494C495459204944454F47524150482D324641303720),
  (0x2FA08, 0x434A4B20434F4D5041544942494C495459204944454F47524150482D324641303820),
  (0x2FA09, 0x434A4B20434F4D5041544942494C495459204944454F47524150482D324641303920),
  (0x2FA0A, 0x434A4B20434F4D5041544942494C495459204944454F47524150482D324641304120),
  (0x2FA0B, 0x434A4B20434F4D5041544942494C495459204944454F47524150482D324641304220)]
def names_487 : List (Nat × Nat) := [
  (0x2FA0C, 0x434A4B20434F4D5041544942494C495459204944454F47524150482D324641304320),
  (0x2FA0D, 0x434A4B20434F4D5041544942494C495459204944454F47524150482D324641304420),
  (0x2FA0E, 0x434A4B20434F4D5041544942494C495459204944454F47524150482D324641304520),
  (0x2FA0F, 0x434A4B20434F4D5041544942494C495459204944454F47524150482D324641304620),
  (0x2FA10, 0x434A4B20434F4D5041544942494C495459204944454F47524150482D324641313020),
  (0x2FA11, 0x434A4B20434F4D5041544942494C495459204944454F47524150482D324641313120),
  (0x2FA12, 0x434A4B20434F4D5041544942494C495459204944454F47524150482D324641313220),
  (0x2FA13, 0x434A4B20434F4D5041544942494C495459204944454F47524150482D324641313320),
  (0x2FA14, 0x434A4B20434F4D5041544942494C495459204944454F47524150482D324641313420),
  (0x2FA15, 0x434A4B20434F4D5041544942494C495459204944454F47524150482D324641313520),
  (0x2FA16, 0x434A4B20434F4D5041544942494C495459204944454F47524150482D324641313620),
  (0x2FA17, 0x434A4B20434F4D5041544942494C495459204944454F47524150482D324641313720),
  (0x2FA18, 0x434A4B20434F4D5041544942494C495459204944454F47524150482D324641313820),
  (0x2FA19, 0x434A4B20434F4D5041544942494C495459204944454F47524150482D324641313920),
  (0x2FA1A, 0x434A4B20434F4D5041544942494C495459204944454F47524150482D324641314120),
  (0x2FA1B, 0x434A4B20434F4D5041544942494C495459204944454F47524150482D324641314220),
  (0x2FA1C, 0x434A4B20434F4D5041544942494C495459204944454F47524150482D324641314320),
  (0x2FA1D, 0x434A4B20434F4D5041544942494C495459204944454F47524150482D324641314420),
  (0xE0001, 0x4C414E47554147452054414720),
  (0xE0020, 0x54414720535041434520),
  (0xE0021, 0x544147204558434C414D4154494F4E204D41524B20),
  (0xE0022, 0x5441472051554F544154494F4E204D41524B20),
  (0xE0023, 0x544147204E554D424552205349474E20),
  (0xE0024, 0x54414720444F4C4C4152205349474E20),
  (0xE0025, 0x5441472050455243454E54205349474E20),
  (0xE0026, 0x54414720414D50455253414E4420),
  (0xE0027, 0x5441472041504F5354524F50484520),
  (0xE0028, 0x544147204C45465420504152454E54484553495320),
  (0xE0029, 0x54414720524947485420504152454E54484553495320),
  (0xE002A, 0x54414720415354455249534B20),
  (0xE002B, 0x54414720504C5553205349474E20),
  (0xE002C, 0x54414720434F4D4D4120),
  (0xE002D, 0x5441472048595048454E2D4D494E555320),
  (0xE002E, 0x5441472046554C4C2053544F5020),
  (0xE002F, 0x54414720534F4C4944555320),
  (0xE0030, 0x544147204449474954205A45524F20),
  (0xE0031, 0x544147204449474954204F4E4520),
  (0xE0032, 0x5441472044494749542054574F20),
  (0xE0033, 0x54414720444947495420544852454520),
  (0xE0034, 0x54414720444947495420464F555220),
  (0xE0035, 0x544147204449474954204649564520),
  (0xE0036, 0x5441472044494749542053495820),
  (0xE0037, 0x54414720444947495420534556454E20),
  (0xE0038, 0x54414720444947495420454947485420),
  (0xE0039, 0x544147204449474954204E494E4520),
  (0xE003A, 0x54414720434F4C4F4E20),
  (0xE003B, 0x5441472053454D49434F4C4F4E20),
  (0xE003C, 0x544147204C4553532D5448414E205349474E20),
  (0xE003D, 0x54414720455155414C53205349474E20),
  (0xE003E, 0x54414720475245415445522D5448414E205349474E20),
  (0xE003F, 0x544147205155455354494F4E204D41524B20),
  (0xE0040, 0x54414720434F4D4D45524349414C20415420),
  (0xE0041, 0x544147204C4154494E204341504954414C204C4554544552204120),
  (0xE0042, 0x544147204C4154494E204341504954414C204C4554544552204220),
  (0xE0043, 0x544147204C4154494E204341504954414C204C4554544552204320),
  (0xE0044, 0x544147204C4154494E204341504954414C204C4554544552204420),
  (0xE0045, 0x544147204C4154494E204341504954414C204C4554544552204520),
  (0xE0046, 0x544147204C4154494E204341504954414C204C4554544552204620),
  (0xE0047, 0x544147204C4154494E204341504954414C204C4554544552204720),
  (0xE0048, 0x544147204C4154494E204341504954414C204C4554544552204820),
  (0xE0049, 0x544147204C4154494E204341504954414C204C4554544552204920),
  (0xE004A, 0x544147204C4154494E204341504954414C204C4554544552204A20),
  (0xE004B, 0x544147204C4154494E204341504954414C204C4554544552204B20),
  (0xE004C, 0x544147204C4154494E204341504954414C204C4554544552204C20)]
def names_488 : List (Nat × Nat) := [
  (0xE004D, 0x544147204C4154494E204341504954414C204C4554544552204D20),
  (0xE004E, 0x544147204C4154494E204341504954414C204C4554544552204E20),
  (0xE004F, 0x544147204C4154494E204341504954414C204C4554544552204F20),
  (0xE0050, 0x544147204C4154494E204341504954414C204C4554544552205020),
  (0xE0051, 0x544147204C4154494E204341504954414C204C4554544552205120),
  (0xE0052, 0x544147204C4154494E204341504954414C204C4554544552205220),
  (0xE0053, 0x544147204C4154494E204341504954414C204C4554544552205320),
  (0xE0054, 0x544147204C4154494E204341504954414C204C4554544552205420),
  (0xE0055, 0x544147204C4154494E204341504954414C204C4554544552205520),
  (0xE0056, 0x544147204C4154494E204341504954414C204C4554544552205620),
  (0xE0057, 0x544147204C4154494E204341504954414C204C4554544552205720),
  (0xE0058, 0x544147204C4154494E204341504954414C204C4554544552205820),
  (0xE0059, 0x544147204C4154494E204341504954414C204C4554544552205920),
  (0xE005A, 0x544147204C4154494E204341504954414C204C4554544552205A20),
  (0xE005B, 0x544147204C4546542053515541524520425241434B455420),
  (0xE005C, 0x544147205245564552534520534F4C4944555320),
  (0xE005D, 0x5441472052494748542053515541524520425241434B455420),
  (0xE005E, 0x5441472043495243554D464C455820414343454E5420),
  (0xE005F, 0x544147204C4F57204C494E4520),
  (0xE0060, 0x54414720475241564520414343454E5420),
  (0xE0061, 0x544147204C4154494E20534D414C4C204C4554544552204120),
  (0xE0062, 0x544147204C4154494E20534D414C4C204C4554544552204220),
  (0xE0063, 0x544147204C4154494E20534D414C4C204C4554544552204320),
  (0xE0064, 0x544147204C4154494E20534D414C4C204C4554544552204420),
  (0xE0065, 0x544147204C4154494E20534D414C4C204C4554544552204520),
  (0xE0066, 0x544147204C4154494E20534D414C4C204C4554544552204620),
  (0xE0067, 0x544147204C4154494E20534D414C4C204C4554544552204720),
  (0xE0068, 0x544147204C4154494E20534D414C4C204C4554544552204820),
  (0xE0069, 0x544147204C4154494E20534D414C4C204C4554544552204920),
  (0xE006A, 0x544147204C4154494E20534D414C4C204C4554544552204A20),
  (0xE006B, 0x544147204C4154494E20534D414C4C204C4554544552204B20),
  (0xE006C, 0x544147204C4154494E20534D414C4C204C4554544552204C20),
  (0xE006D, 0x544147204C4154494E20534D414C4C204C4554544552204D20),
  (0xE006E, 0x544147204C4154494E20534D414C4C204C4554544552204E20),
  (0xE006F, 0x544147204C4154494E20534D414C4C204C4554544552204F20),
  (0xE0070, 0x544147204C4154494E20534D414C4C204C4554544552205020),
  (0xE0071, 0x544147204C4154494E20534D414C4C204C4554544552205120),
  (0xE0072, 0x544147204C4154494E20534D414C4C204C4554544552205220),
  (0xE0073, 0x544147204C4154494E20534D414C4C204C4554544552205320),
  (0xE0074, 0x544147204C4154494E20534D414C4C204C4554544552205420),
  (0xE0075, 0x544147204C4154494E20534D414C4C204C4554544552205520),
  (0xE0076, 0x544147204C4154494E20534D414C4C204C4554544552205620),
  (0xE0077, 0x544147204C4154494E20534D414C4C204C4554544552205720),
  (0xE0078, 0x544147204C4154494E20534D414C4C204C4554544552205820),
  (0xE0079, 0x544147204C4154494E20534D414C4C204C4554544552205920),
  (0xE007A, 0x544147204C4154494E20534D414C4C204C4554544552205A20),
  (0xE007B, 0x544147204C454654204355524C5920425241434B455420),
  (0xE007C, 0x54414720564552544943414C204C494E4520),
  (0xE007D, 0x544147205249474854204355524C5920425241434B455420),
  (0xE007E, 0x5441472054494C444520),
  (0xE007F, 0x43414E43454C2054414720),
  (0xE0100, 0x564152494154494F4E2053454C4543544F522D313720),
  (0xE0101, 0x564152494154494F4E2053454C4543544F522D313820),
  (0xE0102, 0x564152494154494F4E2053454C4543544F522D313920),
  (0xE0103, 0x564152494154494F4E2053454C4543544F522D323020),
  (0xE0104, 0x564152494154494F4E2053454C4543544F522D323120),
  (0xE0105, 0x564152494154494F4E2053454C4543544F522D323220),
  (0xE0106, 0x564152494154494F4E2053454C4543544F522D323320),
  (0xE0107, 0x564152494154494F4E2053454C4543544F522D323420),
  (0xE0108, 0x564152494154494F4E2053454C4543544F522D323520),
  (0xE0109, 0x564152494154494F4E2053454C4543544F522D323620),
  (0xE010A, 0x564152494154494F4E2053454C4543544F522D323720),
  (0xE010B, 0x564152494154494F4E2053454C4543544F522D323820),
  (0xE010C, 0x564152494154494F4E2053454C4543544F522D323920)]
def names_489 : List (Nat × Nat) := [
  (0xE010D, 0x564152494154494F4E2053454C4543544F522D333020),
  (0xE010E, 0x564152494154494F4E2053454C4543544F522D333120),
  (0xE010F, 0x564152494154494F4E2053454C4543544F522D333220),
  (0xE0110, 0x564152494154494F4E2053454C4543544F522D333320),
  (0xE0111, 0x564152494154494F4E2053454C4543544F522D333420),
  (0xE0112, 0x564152494154494F4E2053454C4543544F522D333520),
  (0xE0113, 0x564152494154494F4E2053454C4543544F522D333620),
  (0xE0114, 0x564152494154494F4E2053454C4543544F522D333720),
  (0xE0115, 0x564152494154494F4E2053454C4543544F522D333820),
  (0xE0116, 0x564152494154494F4E2053454C4543544F522D333920),
  (0xE0117, 0x564152494154494F4E2053454C4543544F522D343020),
  (0xE0118, 0x564152494154494F4E2053454C4543544F522D343120),
  (0xE0119, 0x564152494154494F4E2053454C4543544F522D343220),
  (0xE011A, 0x564152494154494F4E2053454C4543544F522D343320),
  (0xE011B, 0x564152494154494F4E2053454C4543544F522D343420),
  (0xE011C, 0x564152494154494F4E2053454C4543544F522D343520),
  (0xE011D, 0x564152494154494F4E2053454C4543544F522D343620),
  (0xE011E, 0x564152494154494F4E2053454C4543544F522D343720),
  (0xE011F, 0x564152494154494F4E2053454C4543544F522D343820),
  (0xE0120, 0x564152494154494F4E2053454C4543544F522D343920),
  (0xE0121, 0x564152494154494F4E2053454C4543544F522D353020),
  (0xE0122, 0x564152494154494F4E2053454C4543544F522D353120),
  (0xE0123, 0x564152494154494F4E2053454C4543544F522D353220),
  (0xE0124, 0x564152494154494F4E2053454C4543544F522D353320),
  (0xE0125, 0x564152494154494F4E2053454C4543544F522D353420),
  (0xE0126, 0x564152494154494F4E2053454C4543544F522D353520),
  (0xE0127, 0x564152494154494F4E2053454C4543544F522D353620),
  (0xE0128, 0x564152494154494F4E2053454C4543544F522D353720),
  (0xE0129, 0x564152494154494F4E2053454C4543544F522D353820),
  (0xE012A, 0x564152494154494F4E2053454C4543544F522D353920),
  (0xE012B, 0x564152494154494F4E2053454C4543544F522D363020),
  (0xE012C, 0x564152494154494F4E2053454C4543544F522D363120),
  (0xE012D, 0x564152494154494F4E2053454C4543544F522D363220),
  (0xE012E, 0x564152494154494F4E2053454C4543544F522D363320),
  (0xE012F, 0x564152494154494F4E2053454C4543544F522D363420),
  (0xE0130, 0x564152494154494F4E2053454C4543544F522D363520),
  (0xE0131, 0x564152494154494F4E2053454C4543544F522D363620),
  (0xE0132, 0x564152494154494F4E2053454C4543544F522D363720),
  (0xE0133, 0x564152494154494F4E2053454C4543544F522D363820),
  (0xE0134, 0x564152494154494F4E2053454C4543544F522D363920),
  (0xE0135, 0x564152494154494F4E2053454C4543544F522D373020),
  (0xE0136, 0x564152494154494F4E2053454C4543544F522D373120),
  (0xE0137, 0x564152494154494F4E2053454C4543544F522D373220),
  (0xE0138, 0x564152494154494F4E2053454C4543544F522D373320),
  (0xE0139, 0x564152494154494F4E2053454C4543544F522D373420),
  (0xE013A, 0x564152494154494F4E2053454C4543544F522D373520),
  (0xE013B, 0x564152494154494F4E2053454C4543544F522D373620),
  (0xE013C, 0x564152494154494F4E2053454C4543544F522D373720),
  (0xE013D, 0x564152494154494F4E2053454C4543544F522D373820),
  (0xE013E, 0x564152494154494F4E2053454C4543544F522D373920),
  (0xE013F, 0x564152494154494F4E2053454C4543544F522D383020),
  (0xE0140, 0x564152494154494F4E2053454C4543544F522D383120),
  (0xE0141, 0x564152494154494F4E2053454C4543544F522D383220),
  (0xE0142, 0x564152494154494F4E2053454C4543544F522D383320),
  (0xE0143, 0x564152494154494F4E2053454C4543544F522D383420),
  (0xE0144, 0x564152494154494F4E2053454C4543544F522D383520),
  (0xE0145, 0x564152494154494F4E2053454C4543544F522D383620),
  (0xE0146, 0x564152494154494F4E2053454C4543544F522D383720),
  (0xE0147, 0x564152494154494F4E2053454C4543544F522D383820),
  (0xE0148, 0x564152494154494F4E2053454C4543544F522D383920),
  (0xE0149, 0x564152494154494F4E2053454C4543544F522D393020),
  (0xE014A, 0x564152494154494F4E2053454C4543544F522D393120),
  (0xE014B, 0x564152494154494F4E2053454C4543544F522D393220),
  (0xE014C, 0x564152494154494F4E2053454C4543544F522D393320)]
def names_490 : List (Nat × Nat) := [
  (0xE014D, 0x564152494154494F4E2053454C4543544F522D393420),
  (0xE014E, 0x564152494154494F4E2053454C4543544F522D393520),
  (0xE014F, 0x564152494154494F4E2053454C4543544F522D393620),
  (0xE0150, 0x564152494154494F4E2053454C4543544F522D393720),
  (0xE0151, 0x564152494154494F4E2053454C4543544F522D393820),
  (0xE0152, 0x564152494154494F4E2053454C4543544F522D393920),
  (0xE0153, 0x564152494154494F4E2053454C4543544F522D31303020),
  (0xE0154, 0x564152494154494F4E2053454C4543544F522D31303120),
  (0xE0155, 0x564152494154494F4E2053454C4543544F522D31303220),
  (0xE0156, 0x564152494154494F4E2053454C4543544F522D31303320),
  (0xE0157, 0x564152494154494F4E2053454C4543544F522D31303420),
  (0xE0158, 0x564152494154494F4E2053454C4543544F522D31303520),
  (0xE0159, 0x564152494154494F4E2053454C4543544F522D31303620),
  (0xE015A, 0x564152494154494F4E2053454C4543544F522D31303720),
  (0xE015B, 0x564152494154494F4E2053454C4543544F522D31303820),
  (0xE015C, 0x564152494154494F4E2053454C4543544F522D31303920),
  (0xE015D, 0x564152494154494F4E2053454C4543544F522D31313020),
  (0xE015E, 0x564152494154494F4E2053454C4543544F522D31313120),
  (0xE015F, 0x564152494154494F4E2053454C4543544F522D31313220),
  (0xE0160, 0x564152494154494F4E2053454C4543544F522D31313320),
  (0xE0161, 0x564152494154494F4E2053454C4543544F522D31313420),
  (0xE0162, 0x564152494154494F4E2053454C4543544F522D31313520),
  (0xE0163, 0x564152494154494F4E2053454C4543544F522D31313620),
  (0xE0164, 0x564152494154494F4E2053454C4543544F522D31313720),
  (0xE0165, 0x564152494154494F4E2053454C4543544F522D31313820),
  (0xE0166, 0x564152494154494F4E2053454C4543544F522D31313920),
  (0xE0167, 0x564152494154494F4E2053454C4543544F522D31323020),
  (0xE0168, 0x564152494154494F4E2053454C4543544F522D31323120),
  (0xE0169, 0x564152494154494F4E2053454C4543544F522D31323220),
  (0xE016A, 0x564152494154494F4E2053454C4543544F522D31323320),
  (0xE016B, 0x564152494154494F4E2053454C4543544F522D31323420),
  (0xE016C, 0x564152494154494F4E2053454C4543544F522D31323520),
  (0xE016D, 0x564152494154494F4E2053454C4543544F522D31323620),
  (0xE016E, 0x564152494154494F4E2053454C4543544F522D31323720),
  (0xE016F, 0x564152494154494F4E2053454C4543544F522D31323820),
  (0xE0170, 0x564152494154494F4E2053454C4543544F522D31323920),
  (0xE0171, 0x564152494154494F4E2053454C4543544F522D31333020),
  (0xE0172, 0x564152494154494F4E2053454C4543544F522D31333120),
  (0xE0173, 0x564152494154494F4E2053454C4543544F522D31333220),
  (0xE0174, 0x564152494154494F4E2053454C4543544F522D31333320),
  (0xE0175, 0x564152494154494F4E2053454C4543544F522D31333420),
  (0xE0176, 0x564152494154494F4E2053454C4543544F522D31333520),
  (0xE0177, 0x564152494154494F4E2053454C4543544F522D31333620),
  (0xE0178, 0x564152494154494F4E2053454C4543544F522D31333720),
  (0xE0179, 0x564152494154494F4E2053454C4543544F522D31333820),
  (0xE017A, 0x564152494154494F4E2053454C4543544F522D31333920),
  (0xE017B, 0x564152494154494F4E2053454C4543544F522D31343020),
  (0xE017C, 0x564152494154494F4E2053454C4543544F522D31343120),
  (0xE017D, 0x564152494154494F4E2053454C4543544F522D31343220),
  (0xE017E, 0x564152494154494F4E2053454C4543544F522D31343320),
  (0xE017F, 0x564152494154494F4E2053454C4543544F522D31343420),
  (0xE0180, 0x564152494154494F4E2053454C4543544F522D31343520),
  (0xE0181, 0x564152494154494F4E2053454C4543544F522D31343620),
  (0xE0182, 0x564152494154494F4E2053454C4543544F522D31343720),
  (0xE0183, 0x564152494154494F4E2053454C4543544F522D31343820),
  (0xE0184, 0x564152494154494F4E2053454C4543544F522D31343920),
  (0xE0185, 0x564152494154494F4E2053454C4543544F522D31353020),
  (0xE0186, 0x564152494154494F4E2053454C4543544F522D31353120),
  (0xE0187, 0x564152494154494F4E2053454C4543544F522D31353220),
  (0xE0188, 0x564152494154494F4E2053454C4543544F522D31353320),
  (0xE0189, 0x564152494154494F4E2053454C4543544F522D31353420),
  (0xE018A, 0x564152494154494F4E2053454C4543544F522D31353520),
  (0xE018B, 0x564152494154494F4E2053454C4543544F522D31353620),
  (0xE018C, 0x564152494154494F4E2053454C4543544F522D31353720)]
def names_491 : List (Nat × Nat) := [
  (0xE018D, 0x564152494154494F4E2053454C4543544F522D31353820),
  (0xE018E, 0x564152494154494F4E2053454C4543544F522D31353920),
  (0xE018F, 0x564152494154494F4E2053454C4543544F522D31363020),
  (0xE0190, 0x564152494154494F4E2053454C4543544F522D31363120),
  (0xE0191, 0x564152494154494F4E2053454C4543544F522D31363220),
  (0xE0192, 0x564152494154494F4E2053454C4543544F522D31363320),
  (0xE0193, 0x564152494154494F4E2053454C4543544F522D31363420),
  (0xE0194, 0x564152494154494F4E2053454C4543544F522D31363520),
  (0xE0195, 0x564152494154494F4E2053454C4543544F522D31363620),
  (0xE0196, 0x564152494154494F4E2053454C4543544F522D31363720),
  (0xE0197, 0x564152494154494F4E2053454C4543544F522D31363820),
  (0xE0198, 0x564152494154494F4E2053454C4543544F522D31363920),
  (0xE0199, 0x564152494154494F4E2053454C4543544F522D31373020),
  (0xE019A, 0x564152494154494F4E2053454C4543544F522D31373120),
  (0xE019B, 0x564152494154494F4E2053454C4543544F522D31373220),
  (0xE019C, 0x564152494154494F4E2053454C4543544F522D31373320),
  (0xE019D, 0x564152494154494F4E2053454C4543544F522D31373420),
  (0xE019E, 0x564152494154494F4E2053454C4543544F522D31373520),
  (0xE019F, 0x564152494154494F4E2053454C4543544F522D31373620),
  (0xE01A0, 0x564152494154494F4E2053454C4543544F522D31373720),
  (0xE01A1, 0x564152494154494F4E2053454C4543544F522D31373820),
  (0xE01A2, 0x564152494154494F4E2053454C4543544F522D31373920),
  (0xE01A3, 0x564152494154494F4E2053454C4543544F522D31383020),
  (0xE01A4, 0x564152494154494F4E2053454C4543544F522D31383120),
  (0xE01A5, 0x564152494154494F4E2053454C4543544F522D31383220),
  (0xE01A6, 0x564152494154494F4E2053454C4543544F522D31383320),
  (0xE01A7, 0x564152494154494F4E2053454C4543544F522D31383420),
  (0xE01A8, 0x564152494154494F4E2053454C4543544F522D31383520),
  (0xE01A9, 0x564152494154494F4E2053454C4543544F522D31383620),
  (0xE01AA, 0x564152494154494F4E2053454C4543544F522D31383720),
  (0xE01AB, 0x564152494154494F4E2053454C4543544F522D31383820),
  (0xE01AC, 0x564152494154494F4E2053454C4543544F522D31383920),
  (0xE01AD, 0x564152494154494F4E2053454C4543544F522D31393020),
  (0xE01AE, 0x564152494154494F4E2053454C4543544F522D31393120),
  (0xE01AF, 0x564152494154494F4E2053454C4543544F522D31393220),
  (0xE01B0, 0x564152494154494F4E2053454C4543544F522D31393320),
  (0xE01B1, 0x564152494154494F4E2053454C4543544F522D31393420),
  (0xE01B2, 0x564152494154494F4E2053454C4543544F522D31393520),
  (0xE01B3, 0x564152494154494F4E2053454C4543544F522D31393620),
  (0xE01B4, 0x564152494154494F4E2053454C4543544F522D31393720),
  (0xE01B5, 0x564152494154494F4E2053454C4543544F522D31393820),
  (0xE01B6, 0x564152494154494F4E2053454C4543544F522D31393920),
  (0xE01B7, 0x564152494154494F4E2053454C4543544F522D32303020),
  (0xE01B8, 0x564152494154494F4E2053454C4543544F522D32303120),
  (0xE01B9, 0x564152494154494F4E2053454C4543544F522D32303220),
  (0xE01BA, 0x564152494154494F4E2053454C4543544F522D32303320),
  (0xE01BB, 0x564152494154494F4E2053454C4543544F522D32303420),
  (0xE01BC, 0x564152494154494F4E2053454C4543544F522D32303520),
  (0xE01BD, 0x564152494154494F4E2053454C4543544F522D32303620),
  (0xE01BE, 0x564152494154494F4E2053454C4543544F522D32303720),
  (0xE01BF, 0x564152494154494F4E2053454C4543544F522D32303820),
  (0xE01C0, 0x564152494154494F4E2053454C4543544F522D32303920),
  (0xE01C1, 0x564152494154494F4E2053454C4543544F522D32313020),
  (0xE01C2, 0x564152494154494F4E2053454C4543544F522D32313120),
  (0xE01C3, 0x564152494154494F4E2053454C4543544F522D32313220),
  (0xE01C4, 0x564152494154494F4E2053454C4543544F522D32313320),
  (0xE01C5, 0x564152494154494F4E2053454C4543544F522D32313420),
  (0xE01C6, 0x564152494154494F4E2053454C4543544F522D32313520),
  (0xE01C7, 0x564152494154494F4E2053454C4543544F522D32313620),
  (0xE01C8, 0x564152494154494F4E2053454C4543544F522D32313720),
  (0xE01C9, 0x564152494154494F4E2053454C4543544F522D32313820),
  (0xE01CA, 0x564152494154494F4E2053454C4543544F522D32313920),
  (0xE01CB, 0x564152494154494F4E2053454C4543544F522D32323020),
  (0xE01CC, 0x564152494154494F4E2053454C4543544F522D32323120)]
def names_492 : List (Nat × Nat) := [
  (0xE01CD, 0x564152494154494F4E2053454C4543544F522D32323220),
  (0xE01CE, 0x564152494154494F4E2053454C4543544F522D32323320),
  (0xE01CF, 0x564152494154494F4E2053454C4543544F522D32323420),
  (0xE01D0, 0x564152494154494F4E2053454C4543544F522D32323520),
  (0xE01D1, 0x564152494154494F4E2053454C4543544F522D32323620),
  (0xE01D2, 0x564152494154494F4E2053454C4543544F522D32323720),
  (0xE01D3, 0x564152494154494F4E2053454C4543544F522D32323820),
  (0xE01D4, 0x564152494154494F4E2053454C4543544F522D32323920),
  (0xE01D5, 0x564152494154494F4E2053454C4543544F522D32333020),
  (0xE01D6, 0x564152494154494F4E2053454C4543544F522D32333120),
  (0xE01D7, 0x564152494154494F4E2053454C4543544F522D32333220),
  (0xE01D8, 0x564152494154494F4E2053454C4543544F522D32333320),
  (0xE01D9, 0x564152494154494F4E2053454C4543544F522D32333420),
  (0xE01DA, 0x564152494154494F4E2053454C4543544F522D32333520),
  (0xE01DB, 0x564152494154494F4E2053454C4543544F522D32333620),
  (0xE01DC, 0x564152494154494F4E2053454C4543544F522D32333720),
  (0xE01DD, 0x564152494154494F4E2053454C4543544F522D32333820),
  (0xE01DE, 0x564152494154494F4E2053454C4543544F522D32333920),
  (0xE01DF, 0x564152494154494F4E2053454C4543544F522D32343020),
  (0xE01E0, 0x564152494154494F4E2053454C4543544F522D32343120),
  (0xE01E1, 0x564152494154494F4E2053454C4543544F522D32343220),
  (0xE01E2, 0x564152494154494F4E2053454C4543544F522D32343320),
  (0xE01E3, 0x564152494154494F4E2053454C4543544F522D32343420),
  (0xE01E4, 0x564152494154494F4E2053454C4543544F522D32343520),
  (0xE01E5, 0x564152494154494F4E2053454C4543544F522D32343620),
  (0xE01E6, 0x564152494154494F4E2053454C4543544F522D32343720),
  (0xE01E7, 0x564152494154494F4E2053454C4543544F522D32343820),
  (0xE01E8, 0x564152494154494F4E2053454C4543544F522D32343920),
  (0xE01E9, 0x564152494154494F4E2053454C4543544F522D32353020),
  (0xE01EA, 0x564152494154494F4E2053454C4543544F522D32353120),
  (0xE01EB, 0x564152494154494F4E2053454C4543544F522D32353220),
  (0xE01EC, 0x564152494154494F4E2053454C4543544F522D32353320),
  (0xE01ED, 0x564152494154494F4E2053454C4543544F522D32353420),
  (0xE01EE, 0x564152494154494F4E2053454C4543544F522D32353520),
  (0xE01EF, 0x564152494154494F4E2053454C4543544F522D32353620)]
/-- unic/ucd/name/tables/name_map.rsv and name_values.rsd (all 31523 entries, `CharDataTable::Direct`), in chunks of 64. -/
def names : List (List (Nat × Nat)) := [names_0, names_1, names_2, names_3, names_4, names_5, names_6, names_7, names_8, names_9, names_10, names_11, names_12, names_13, names_14, names_15, names_16, names_17, names_18, names_19, names_20, names_21, names_22, names_23, names_24, names_25, names_26, names_27, names_28, names_29, names_30, names_31, names_32, names_33, names_34, names_35, names_36, names_37, names_38, names_39, names_40, names_41, names_42, names_43, names_44, names_45, names_46, names_47, names_48, names_49, names_50, names_51, names_52, names_53, names_54, names_55, names_56, names_57, names_58, names_59, names_60, names_61, names_62, names_63, names_64, names_65, names_66, names_67, names_68, names_69, names_70, names_71, names_72, names_73, names_74, names_75, names_76, names_77, names_78, names_79, names_80, names_81, names_82, names_83, names_84, names_85, names_86, names_87, names_88, names_89, names_90, names_91, names_92, names_93, names_94, names_95, names_96, names_97, names_98, names_99, names_100, names_101, names_102, names_103, names_104, names_105, names_106, names_107, names_108, names_109, names_110, names_111, names_112, names_113, names_114, names_115, names_116, names_117, names_118, names_119, names_120, names_121, names_122, names_123, names_124, names_125, names_126, names_127, names_128, names_129, names_130, names_131, names_132, names_133, names_134, names_135, names_136, names_137, names_138, names_139, names_140, names_141, names_142, names_143, names_144, names_145, names_146, names_147, names_148, names_149, names_150, names_151, names_152, names_153, names_154, names_155, names_156, names_157, names_158, names_159, names_160, names_161, names_162, names_163, names_164, names_165, names_166, names_167, names_168, names_169, names_170, names_171, names_172, names_173, names_174, names_175, names_176, names_177, names_178, names_179, names_180, names_181, names_182, names_183, names_184, names_185, names_186, names_187, names_188, names_189, names_190, names_191, names_192, names_193, names_194, names_195, names_196, names_197, names_198, names_199, names_200, names_201, names_202, names_203, names_204, names_205, names_206, names_207, names_208, names_209, names_210, names_211, names_212, names_213, names_214, names_215, names_216, names_217, names_218, names_219, names_220, names_221, names_222, names_223, names_224, names_225, names_226, names_227, names_228, names_229, names_230, names_231, names_232, names_233, names_234, names_235, names_236, names_237, names_238, names_239, names_240, names_241, names_242, names_243, names_244, names_245, names_246, names_247, names_248, names_249, names_250, names_251, names_252, names_253, names_254, names_255, names_256, names_257, names_258, names_259, names_260, names_261, names_262, names_263, names_264, names_265, names_266, names_267, names_268, names_269, names_270, names_271, names_272, names_273, names_274, names_275, names_276, names_277, names_278, names_279, names_280, names_281, names_282, names_283, names_284, names_285, names_286, names_287, names_288, names_289, names_290, names_291, names_292, names_293, names_294, names_295, names_296, names_297, names_298, names_299, names_300, names_301, names_302, names_303, names_304, names_305, names_306, names_307, names_308, names_309, names_310, names_311, names_312, names_313, names_314, names_315, names_316, names_317, names_318, names_319, names_320, names_321, names_322, names_323, names_324, names_325, names_326, names_327, names_328, names_329, names_330, names_331, names_332, names_333, names_334, names_335, names_336, names_337, names_338, names_339, names_340, names_341, names_342, names_343, names_344, names_345, names_346, names_347, names_348, names_349, names_350, names_351, names_352, names_353, names_354, names_355, names_356, names_357, names_358, names_359, names_360, names_361, names_362, names_363, names_364, names_365, names_366, names_367, names_368, names_369, names_370, names_371, names_372, names_373, names_374, names_375, names_376, names_377, names_378, names_379, names_380, names_381, names_382, names_383, names_384, names_385, names_386, names_387, names_388, names_389, names_390, names_391, names_392, names_393, names_394, names_395, names_396, names_397, names_398, names_399, names_400, names_401, names_402, names_403, names_404, names_405, names_406, names_407, names_408, names_409, names_410, names_411, names_412, names_413, names_414, names_415, names_416, names_417, names_418, names_419, names_420, names_421, names_422, names_423, names_424, names_425, names_426, names_427, names_428, names_429, names_430, names_431, names_432, names_433, names_434, names_435, names_436, names_437, names_438, names_439, names_440, names_441, names_442, names_443, names_444, names_445, names_446, names_447, names_448, names_449, names_450, names_451, names_452, names_453, names_454, names_455, names_456, names_457, names_458, names_459, names_460, names_461, names_462, names_463, names_464, names_465, names_466, names_467, names_468, names_469, names_470, names_471, names_472, names_473, names_474, names_475, names_476, names_477, names_478, names_479, names_480, names_481, names_482, names_483, names_484, names_485, names_486, names_487, names_488, names_489, names_490, names_491, names_492]

end Data
