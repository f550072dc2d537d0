import Verif.Nmea2k.Model

set_option autoImplicit false

/-!
# The shipped PGN table

Generated by tools/gen_table.py from nmea2k/pgn_array.go (`PgnList`, lines 99-3308); do not edit.
Each definition cites the line of the entry it transcribes.
-/

namespace Argo.Nmea2k.Table

open Argo.Nmea2k

/-- pgn_array.go:100, index 0. -/
def p0 : Pgn := ⟨"Unknown PGN", "Mandatory", 0, false, 8, 0, [
  ⟨"Bytes", 64, .binary, false, .nil, "", "", 0⟩]⟩

/-- pgn_array.go:104, index 1. -/
def p1 : Pgn := ⟨"ISO Acknowledgement", "Mandatory", 59392, true, 8, 0, [
  ⟨"Control", 8, .lookup, false, (.lookup "lookupIsoAckResults"), "", "", 0⟩,
  ⟨"Group Function", 8, .one, false, .nil, "", "", 0⟩,
  ⟨"Reserved", 24, .binary, false, .nil, "Alignment padding", "", 0⟩,
  ⟨"PGN", 24, .integer, false, .nil, "Parameter Group Number of requested information", "", 0⟩]⟩

/-- pgn_array.go:111, index 2. -/
def p2 : Pgn := ⟨"ISO Request", "Mandatory", 59904, true, 3, 0, [
  ⟨"PGN", 24, .integer, false, .nil, "", "", 0⟩]⟩

/-- pgn_array.go:115, index 3. -/
def p3 : Pgn := ⟨"ISO Address Claim", "Mandatory", 60928, true, 8, 0, [
  ⟨"Unique Number", 21, .binary, false, .nil, "ISO Identity Number", "", 0⟩,
  ⟨"Manufacturer Code", 11, .manufacturer, false, .nil, "", "", 0⟩,
  ⟨"Device Instance Lower", 3, .one, false, .nil, "ISO ECU Instance", "", 0⟩,
  ⟨"Device Instance Upper", 5, .one, false, .nil, "ISO Function Instance", "", 0⟩,
  ⟨"Device Function", 8, .lookup2, false, (.subLookup "lookupDeviceFunction"), "ISO Function", "", 6⟩,
  ⟨"Reserved", 1, .one, false, .nil, "Alignment padding", "", 0⟩,
  ⟨"Device Class", 7, .lookup, false, (.lookup "lookupDeviceClass"), "", "", 0⟩,
  ⟨"System Instance", 4, .one, false, .nil, "ISO Device Class Instance", "", 0⟩,
  ⟨"Industry Code", 3, .lookup, false, (.lookup "lookupIndustryCode"), "", "", 0⟩,
  ⟨"Arbitrary Address Capable", 1, .one, false, .nil, "ISO Self Configurable", "", 0⟩]⟩

/-- pgn_array.go:128, index 4. -/
def p4 : Pgn := ⟨"ISO: Manu. Proprietary single-frame addressed", "General", 61184, false, 8, 0, [
  ⟨"Manufacturer Code", 11, .manufacturer, false, .nil, "", "", 0⟩,
  ⟨"Reserved", 2, .one, false, .nil, "", "", 0⟩,
  ⟨"Industry Code", 3, .one, false, .nil, "", "", 0⟩,
  ⟨"Payload", 48, .binary, false, .nil, "", "", 0⟩]⟩

/-- pgn_array.go:137, index 5. -/
def p5 : Pgn := ⟨"Bus #1 Phase C Basic AC Quantities", "Power", 65001, false, 8, 0, [
  ⟨"Line-Line AC RMS Voltage", 16, .one, false, (.text "V"), "", "electrical.ac.bus1.phaseC.lineLineVoltage", 0⟩,
  ⟨"Line-Neutral AC RMS Voltage", 16, .one, false, (.text "V"), "electrical.ac.bus1.phaseC.lineNeutralVoltage", "", 0⟩,
  ⟨"AC Frequency", 16, (.scale "1.0 / 128"), false, (.text "Hz"), "", "electrical.ac.bus1.phaseC.frequency", 0⟩]⟩

/-- pgn_array.go:143, index 6. -/
def p6 : Pgn := ⟨"Bus #1 Phase B Basic AC Quantities", "Power", 65002, false, 8, 0, [
  ⟨"Line-Line AC RMS Voltage", 16, .one, false, (.text "V"), "", "electrical.ac.bus1.phaseB.lineLineVoltage", 0⟩,
  ⟨"Line-Neutral AC RMS Voltage", 16, .one, false, (.text "V"), "", "electrical.ac.bus1.phaseB.lineNeutralVoltage", 0⟩,
  ⟨"AC Frequency", 16, (.scale "1.0 / 128"), false, (.text "Hz"), "", "electrical.ac.bus1.phaseB.frequency", 0⟩]⟩

/-- pgn_array.go:149, index 7. -/
def p7 : Pgn := ⟨"Bus #1 Phase A Basic AC Quantities", "Power", 65003, false, 8, 0, [
  ⟨"Line-Line AC RMS Voltage", 16, .one, false, (.text "V"), "", "electrical.ac.bus1.phaseA.lineLineVoltage", 0⟩,
  ⟨"Line-Neutral AC RMS Voltage", 16, .one, false, (.text "V"), "", "electrical.ac.bus1.phaseA.lineNeutralVoltage", 0⟩,
  ⟨"AC Frequency", 16, (.scale "1.0 / 128"), false, (.text "Hz"), "", "electrical.ac.bus1.phaseA.frequency", 0⟩]⟩

/-- pgn_array.go:155, index 8. -/
def p8 : Pgn := ⟨"Bus #1 Average Basic AC Quantities", "Power", 65004, false, 8, 0, [
  ⟨"Line-Line AC RMS Voltage", 16, .one, false, (.text "V"), "", "electrical.ac.bus1.lineLineVoltage", 0⟩,
  ⟨"Line-Neutral AC RMS Voltage", 16, .one, false, (.text "V"), "", "electrical.ac.bus1.lineNeutralVoltage", 0⟩,
  ⟨"AC Frequency", 16, (.scale "1.0 / 128"), false, (.text "Hz"), "", "electrical.ac.bus1.frequency", 0⟩]⟩

/-- pgn_array.go:161, index 9. -/
def p9 : Pgn := ⟨"Utility Total AC Energy", "Power", 65005, false, 8, 0, [
  ⟨"Total Energy Export", 32, .one, false, (.text "kWh"), "", "electrical.ac.utility.totalExport", 0⟩,
  ⟨"Total Energy Import", 32, .one, false, (.text "kWh"), "", "electrical.ac.utility.totalImport", 0⟩]⟩

/-- pgn_array.go:166, index 10. -/
def p10 : Pgn := ⟨"Utility Phase C AC Reactive Power", "Power", 65006, false, 8, 0, [
  ⟨"Reactive Power", 32, .integer, false, (.text "VAr"), "", "electrical.ac.utility.phaseC.reactivePower", -2000000000⟩,
  ⟨"Power Factor", 16, (.scale "1.0 / 16384"), false, .nil, "", "electrical.ac.utility.phaseC.powerFactor", 0⟩,
  ⟨"Power Factor Lagging", 2, .lookup, false, (.lookup "lookupPowerFactor"), "", "electrical.ac.utility.phaseC.powerFactorLagging", 0⟩]⟩

/-- pgn_array.go:172, index 11. -/
def p11 : Pgn := ⟨"Utility Phase C AC Power", "Power", 65007, false, 8, 0, [
  ⟨"Real Power", 32, .one, true, (.text "W"), "", "electrical.ac.utility.phaseC.realPower", -2000000000⟩,
  ⟨"Apparent Power", 32, .one, true, (.text "VA"), "", "electrical.ac.utility.phaseC.apparentPower", -2000000000⟩]⟩

/-- pgn_array.go:177, index 12. -/
def p12 : Pgn := ⟨"Utility Phase C Basic AC Quantities", "Power", 65008, false, 8, 0, [
  ⟨"Line-Line AC RMS Voltage", 16, .one, false, (.text "V"), "", "electrical.ac.utility.phaseC.lineLineVoltage", 0⟩,
  ⟨"Line-Neutral AC RMS Voltage", 16, .one, false, (.text "V"), "", "electrical.ac.utility.phaseC.lineNeutralVoltage", 0⟩,
  ⟨"AC Frequency", 16, (.scale "1.0 / 128"), false, (.text "Hz"), "", "electrical.ac.utility.phaseC.frequency", 0⟩,
  ⟨"AC RMS Current", 16, .one, false, (.text "A"), "", "electrical.ac.utility.phaseC.current", 0⟩]⟩

/-- pgn_array.go:184, index 13. -/
def p13 : Pgn := ⟨"Utility Phase B AC Reactive Power", "Power", 65009, false, 8, 0, [
  ⟨"Reactive Power", 32, .integer, false, (.text "VAr"), "", "electrical.ac.utility.phaseB.reactivePower", -2000000000⟩,
  ⟨"Power Factor", 16, (.scale "1.0 / 16384"), false, .nil, "", "electrical.ac.utility.phaseB.powerFactor", 0⟩,
  ⟨"Power Factor Lagging", 2, .lookup, false, (.lookup "lookupPowerFactor"), "", "electrical.ac.utility.phaseB.powerFactorLagging", 0⟩]⟩

/-- pgn_array.go:190, index 14. -/
def p14 : Pgn := ⟨"Utility Phase B AC Power", "Power", 65010, false, 8, 0, [
  ⟨"Real Power", 32, .one, true, (.text "W"), "", "electrical.ac.utility.phaseB.realPower", -2000000000⟩,
  ⟨"Apparent Power", 32, .one, true, (.text "VA"), "", "electrical.ac.utility.phaseB.apparentPower", -2000000000⟩]⟩

/-- pgn_array.go:195, index 15. -/
def p15 : Pgn := ⟨"Utility Phase B Basic AC Quantities", "Power", 65011, false, 8, 0, [
  ⟨"Line-Line AC RMS Voltage", 16, .one, false, (.text "V"), "", "electrical.ac.utility.phaseB.lineLineVoltage", 0⟩,
  ⟨"Line-Neutral AC RMS Voltage", 16, .one, false, (.text "V"), "", "electrical.ac.utility.phaseB.lineNeutralVoltage", 0⟩,
  ⟨"AC Frequency", 16, (.scale "1.0 / 128"), false, (.text "Hz"), "", "electrical.ac.utility.phaseB.frequency", 0⟩,
  ⟨"AC RMS Current", 16, .one, false, (.text "A"), "", "electrical.ac.utility.phaseB.current", 0⟩]⟩

/-- pgn_array.go:202, index 16. -/
def p16 : Pgn := ⟨"Utility Phase A AC Reactive Power", "Power", 65012, false, 8, 0, [
  ⟨"Reactive Power", 32, .integer, false, (.text "VAr"), "", "electrical.ac.utility.phaseA.reactivePower", -2000000000⟩,
  ⟨"Power Factor", 16, (.scale "1.0 / 16384"), true, .nil, "", "electrical.ac.utility.phaseA.powerFactor", 0⟩,
  ⟨"Power Factor Lagging", 2, .lookup, false, (.lookup "lookupPowerFactor"), "", "electrical.ac.utility.phaseA.powerFactorLagging", 0⟩]⟩

/-- pgn_array.go:208, index 17. -/
def p17 : Pgn := ⟨"Utility Phase A AC Power", "Power", 65013, false, 8, 0, [
  ⟨"Real Power", 32, .one, true, (.text "W"), "", "electrical.ac.utility.phaseA.realPower", -2000000000⟩,
  ⟨"Apparent Power", 32, .one, true, (.text "VA"), "", "electrical.ac.utility.phaseA.apparentPower", -2000000000⟩]⟩

/-- pgn_array.go:213, index 18. -/
def p18 : Pgn := ⟨"Utility Phase A Basic AC Quantities", "Power", 65014, false, 8, 0, [
  ⟨"Line-Line AC RMS Voltage", 16, .one, false, (.text "V"), "", "electrical.ac.utility.phaseA.lineLineVoltage", 0⟩,
  ⟨"Line-Neutral AC RMS Voltage", 16, .one, false, (.text "V"), "", "electrical.ac.utility.phaseA.lineNeutralVoltage", 0⟩,
  ⟨"AC Frequency", 16, (.scale "1.0 / 128"), false, (.text "Hz"), "", "electrical.ac.utility.phaseA.frequency", 0⟩,
  ⟨"AC RMS Current", 16, .one, false, (.text "A"), "", "electrical.ac.utility.phaseA.current", 0⟩]⟩

/-- pgn_array.go:220, index 19. -/
def p19 : Pgn := ⟨"Utility Total AC Reactive Power", "Power", 65015, false, 8, 0, [
  ⟨"Reactive Power", 32, .integer, false, (.text "VAr"), "", "electrical.ac.utility.reactivePower", -2000000000⟩,
  ⟨"Power Factor", 16, (.scale "1.0 / 16384"), false, .nil, "", "electrical.ac.utility.powerFactor", 0⟩,
  ⟨"Power Factor Lagging", 2, .lookup, false, (.lookup "lookupPowerFactor"), "", "electrical.ac.utility.powerFactorLagging", 0⟩]⟩

/-- pgn_array.go:226, index 20. -/
def p20 : Pgn := ⟨"Utility Total AC Power", "Power", 65016, false, 8, 0, [
  ⟨"Real Power", 32, .one, true, (.text "W"), "", "electrical.ac.utility.realPower", -2000000000⟩,
  ⟨"Apparent Power", 32, .one, true, (.text "VA"), "", "electrical.ac.utility.apparentPower", -2000000000⟩]⟩

/-- pgn_array.go:231, index 21. -/
def p21 : Pgn := ⟨"Utility Average Basic AC Quantities", "Power", 65017, false, 8, 0, [
  ⟨"Line-Line AC RMS Voltage", 16, .one, false, (.text "V"), "", "electrical.ac.utility.lineLineVoltage", 0⟩,
  ⟨"Line-Neutral AC RMS Voltage", 16, .one, false, (.text "V"), "", "electrical.ac.utility.lineNeutralVoltage", 0⟩,
  ⟨"AC Frequency", 16, (.scale "1.0 / 128"), false, (.text "Hz"), "", "electrical.ac.utility.frequency", 0⟩,
  ⟨"AC RMS Current", 16, .one, false, (.text "A"), "", "electrical.ac.utility.current", 0⟩]⟩

/-- pgn_array.go:238, index 22. -/
def p22 : Pgn := ⟨"Generator Total AC Energy", "Power", 65018, false, 8, 0, [
  ⟨"Total Energy Export", 32, .one, false, (.text "kWh"), "", "electrical.ac.generator.totalExport", 0⟩,
  ⟨"Total Energy Import", 32, .one, false, (.text "kWh"), "", "electrical.ac.generator.totalImport", 0⟩]⟩

/-- pgn_array.go:243, index 23. -/
def p23 : Pgn := ⟨"Generator Phase C AC Reactive Power", "Power", 65019, false, 8, 0, [
  ⟨"Reactive Power", 32, .integer, false, (.text "VAr"), "", "electrical.ac.generator.phaseC.reactivePower", -2000000000⟩,
  ⟨"Power Factor", 16, (.scale "1.0 / 16384"), false, .nil, "", "electrical.ac.generator.phaseC.powerFactor", 0⟩,
  ⟨"Power Factor Lagging", 2, .lookup, false, (.lookup "lookupPowerFactor"), "", "electrical.ac.generator.phase", 0⟩]⟩

/-- pgn_array.go:249, index 24. -/
def p24 : Pgn := ⟨"Generator Phase C AC Power", "Power", 65020, false, 8, 0, [
  ⟨"Real Power", 32, .one, false, (.text "W"), "", "electrical.ac.generator.phaseC.realPower", -2000000000⟩,
  ⟨"Apparent Power", 32, .one, false, (.text "VA"), "", "electrical.ac.generator.phaseC.apparentPower", -2000000000⟩]⟩

/-- pgn_array.go:254, index 25. -/
def p25 : Pgn := ⟨"Generator Phase C Basic AC Quantities", "Power", 65021, false, 8, 0, [
  ⟨"Line-Line AC RMS Voltage", 16, .one, false, (.text "V"), "", "electrical.ac.generator.phaseC.lineLineVoltage", 0⟩,
  ⟨"Line-Neutral AC RMS Voltage", 16, .one, false, (.text "V"), "", "electrical.ac.generator.phaseC.lineNeutralVoltage", 0⟩,
  ⟨"AC Frequency", 16, (.scale "1.0 / 128"), false, (.text "Hz"), "", "electrical.ac.generator.phaseC.frequency", 0⟩,
  ⟨"AC RMS Current", 16, .one, false, (.text "A"), "", "electrical.ac.generator.phaseC.current", 0⟩]⟩

/-- pgn_array.go:261, index 26. -/
def p26 : Pgn := ⟨"Generator Phase B AC Reactive Power", "Power", 65022, false, 8, 0, [
  ⟨"Reactive Power", 32, .integer, false, (.text "VAr"), "", "electrical.ac.generator.phaseB.reactivePower", -2000000000⟩,
  ⟨"Power Factor", 16, (.scale "1.0 / 16384"), false, .nil, "", "electrical.ac.generator.phaseB.powerFactor", 0⟩,
  ⟨"Power Factor Lagging", 2, .lookup, false, (.lookup "lookupPowerFactor"), "", "electrical.ac.generator.phaseB.powerFactorLagging", 0⟩]⟩

/-- pgn_array.go:267, index 27. -/
def p27 : Pgn := ⟨"Generator Phase B AC Power", "Power", 65023, false, 8, 0, [
  ⟨"Real Power", 32, .one, false, (.text "W"), "", "electrical.ac.generator.phaseB.realPower", -2000000000⟩,
  ⟨"Apparent Power", 32, .one, false, (.text "VA"), "", "electrical.ac.generator.phaseB.apparentPower", -2000000000⟩]⟩

/-- pgn_array.go:272, index 28. -/
def p28 : Pgn := ⟨"Generator Phase B Basic AC Quantities", "Power", 65024, false, 8, 0, [
  ⟨"Line-Line AC RMS Voltage", 16, .one, false, (.text "V"), "", "electrical.ac.generator.phaseB.lineLineVoltage", 0⟩,
  ⟨"Line-Neutral AC RMS Voltage", 16, .one, false, (.text "V"), "", "electrical.ac.generator.phaseB.lineNeutralVoltage", 0⟩,
  ⟨"AC Frequency", 16, (.scale "1.0 / 128"), false, (.text "Hz"), "", "electrical.ac.generator.phaseB.frequency", 0⟩,
  ⟨"AC RMS Current", 16, .one, false, (.text "A"), "", "electrical.ac.generator.phaseB.current", 0⟩]⟩

/-- pgn_array.go:279, index 29. -/
def p29 : Pgn := ⟨"Generator Phase A AC Reactive Power", "Power", 65025, false, 8, 0, [
  ⟨"Reactive Power", 32, .integer, false, (.text "VAr"), "", "electrical.ac.generator.phaseA.reactivePower", -2000000000⟩,
  ⟨"Power Factor", 16, (.scale "1.0 / 16384"), false, .nil, "", "electrical.ac.generator.phaseA.powerFactor", 0⟩,
  ⟨"Power Factor Lagging", 2, .lookup, false, (.lookup "lookupPowerFactor"), "", "electrical.ac.generator.phaseA.powerFactorLagging", 0⟩]⟩

/-- pgn_array.go:285, index 30. -/
def p30 : Pgn := ⟨"Generator Phase A AC Power", "Power", 65026, false, 8, 0, [
  ⟨"Real Power", 32, .one, false, (.text "W"), "", "electrical.ac.generator.phaseA.realPower", -2000000000⟩,
  ⟨"Apparent Power", 32, .one, false, (.text "VA"), "", "electrical.ac.generator.phaseA.apparentPower", -2000000000⟩]⟩

/-- pgn_array.go:290, index 31. -/
def p31 : Pgn := ⟨"Generator Phase A Basic AC Quantities", "Power", 65027, false, 8, 0, [
  ⟨"Line-Line AC RMS Voltage", 16, .one, false, (.text "V"), "", "electrical.ac.generator.phaseA.lineLineVoltage", 0⟩,
  ⟨"Line-Neutral AC RMS Voltage", 16, .one, false, (.text "V"), "", "electrical.ac.generator.phaseA.lineNeutralVoltage", 0⟩,
  ⟨"AC Frequency", 16, (.scale "1.0 / 128"), false, (.text "Hz"), "", "electrical.ac.generator.phaseA.frequency", 0⟩,
  ⟨"AC RMS Current", 16, .one, false, (.text "A"), "", "electrical.ac.generator.phaseA.current", 0⟩]⟩

/-- pgn_array.go:297, index 32. -/
def p32 : Pgn := ⟨"Generator Total AC Reactive Power", "Power", 65028, false, 8, 0, [
  ⟨"Reactive Power", 32, .integer, false, (.text "VAr"), "", "electrical.ac.generator.reactivePower", -2000000000⟩,
  ⟨"Power Factor", 16, (.scale "1.0 / 16384"), false, .nil, "", "electrical.ac.generator.powerFactor", 0⟩,
  ⟨"Power Factor Lagging", 2, .lookup, false, (.lookup "lookupPowerFactor"), "", "electrical.ac.generator.powerFactorLagging", 0⟩]⟩

/-- pgn_array.go:303, index 33. -/
def p33 : Pgn := ⟨"Generator Total AC Power", "Power", 65029, false, 8, 0, [
  ⟨"Real Power", 32, .one, false, (.text "W"), "", "electrical.ac.generator.realPower", -2000000000⟩,
  ⟨"Apparent Power", 32, .one, false, (.text "VA"), "", "electrical.ac.generator.apparentPower", -2000000000⟩]⟩

/-- pgn_array.go:308, index 34. -/
def p34 : Pgn := ⟨"Generator Average Basic AC Quantities", "Power", 65030, false, 8, 0, [
  ⟨"Line-Line AC RMS Voltage", 16, .one, false, (.text "V"), "", "electrical.ac.generator.lineLineVoltage", 0⟩,
  ⟨"Line-Neutral AC RMS Voltage", 16, .one, false, (.text "V"), "", "electrical.ac.generator.lineNeutralVoltage", 0⟩,
  ⟨"AC Frequency", 16, (.scale "1.0 / 128"), false, (.text "Hz"), "", "electrical.ac.generator.frequency", 0⟩,
  ⟨"AC RMS Current", 16, .one, false, (.text "A"), "", "electrical.ac.generator.current", 0⟩]⟩

/-- pgn_array.go:319, index 35. -/
def p35 : Pgn := ⟨"ISO Commanded Address", "General", 65240, true, 8, 0, [
  ⟨"Unique Number", 21, .binary, false, .nil, "ISO Identity Number", "", 0⟩,
  ⟨"Manufacturer Code", 11, .one, false, (.lookup "lookupCompanyCode"), "", "", 0⟩,
  ⟨"Device Instance Lower", 3, .one, false, .nil, "ISO ECU Instance", "", 0⟩,
  ⟨"Device Instance Upper", 5, .one, false, .nil, "ISO Function Instance", "", 0⟩,
  ⟨"Device Function", 8, .one, false, .nil, "ISO Function", "", 0⟩,
  ⟨"Reserved", 1, .one, false, .nil, "", "", 0⟩,
  ⟨"Device Class", 7, .lookup, false, (.lookup "lookupDeviceClass"), "", "", 0⟩,
  ⟨"System Instance", 4, .one, false, .nil, "ISO Device Class Instance", "", 0⟩,
  ⟨"Industry Code", 3, .lookup, false, (.lookup "lookupIndustryCode"), "", "", 0⟩,
  ⟨"Arbitrary Address Capable", 1, .one, false, .nil, "ISO Self Configurable", "", 0⟩,
  ⟨"New Source Address", 8, .one, false, .nil, "", "", 0⟩]⟩

/-- pgn_array.go:334, index 36. -/
def p36 : Pgn := ⟨"ISO: Manu. Proprietary single-frame non-addressed", "General", 65280, false, 8, 0, [
  ⟨"Manufacturer Code", 11, .manufacturer, false, .nil, "", "", 0⟩,
  ⟨"Reserved", 2, .one, false, .nil, "", "", 0⟩,
  ⟨"Industry Code", 3, .one, false, .nil, "", "", 0⟩,
  ⟨"Payload", 48, .binary, false, .nil, "", "", 0⟩]⟩

/-- pgn_array.go:342, index 37. -/
def p37 : Pgn := ⟨"Boot State Acknowledgment", "Airmar", 65285, true, 8, 0, [
  ⟨"Manufacturer Code", 11, .manufacturer, false, (.must 135), "Airmar", "", 0⟩,
  ⟨"Reserved", 2, .one, false, .nil, "", "", 0⟩,
  ⟨"Industry Code", 3, .lookup, false, (.lookup "lookupIndustryCode"), "Marine Industry", "", 0⟩,
  ⟨"Boot State", 4, .lookup, false, (.lookup "lookupAirmarBootState"), "", "", 0⟩]⟩

/-- pgn_array.go:349, index 38. -/
def p38 : Pgn := ⟨"Temperature", "Lowrance", 65285, false, 8, 0, [
  ⟨"Manufacturer Code", 11, .manufacturer, false, (.must 140), "", "", 0⟩,
  ⟨"Reserved", 2, .one, false, .nil, "", "", 0⟩,
  ⟨"Industry Code", 3, .lookup, false, (.lookup "lookupIndustryCode"), "", "", 0⟩,
  ⟨"Temperature Instance", 4, .one, false, .nil, "", "", 0⟩,
  ⟨"Temperature Source", 4, .one, false, .nil, "", "", 0⟩,
  ⟨"Actual Temperature", 16, .temperature, false, (.text "K"), "", "", 0⟩]⟩

/-- pgn_array.go:359, index 39. -/
def p39 : Pgn := ⟨"Boot State Request", "Airmar", 65286, true, 8, 0, [
  ⟨"Manufacturer Code", 11, .manufacturer, false, (.must 135), "Airmar", "", 0⟩,
  ⟨"Reserved", 2, .one, false, .nil, "", "", 0⟩,
  ⟨"Industry Code", 3, .lookup, false, (.lookup "lookupIndustryCode"), "", "", 0⟩]⟩

/-- pgn_array.go:366, index 40. -/
def p40 : Pgn := ⟨"Access Level", "Airmar", 65287, true, 8, 0, [
  ⟨"Manufacturer Code", 11, .manufacturer, false, (.must 135), "Airmar", "", 0⟩,
  ⟨"Reserved", 2, .one, false, .nil, "", "", 0⟩,
  ⟨"Industry Code", 3, .lookup, false, (.lookup "lookupIndustryCode"), "Marine Industry", "", 0⟩,
  ⟨"Format Code", 8, .lookup, false, (.lookup "lookupAirmarFormatCode"), "", "", 0⟩,
  ⟨"Access Level", 3, .lookup, false, (.lookup "lookupAirmarAccessLevel"), "", "", 0⟩,
  ⟨"Reserved", 5, .one, false, .nil, "", "", 0⟩,
  ⟨"Access Seed/Key", 32, .integer, false, .nil, "When transmitted, it provides a seed for an unlock operation. It is used to provide the key during PGN 126208.", "", 0⟩]⟩

/-- pgn_array.go:376, index 41. -/
def p41 : Pgn := ⟨"Configure Temperature Sensor", "Simnet", 65287, false, 8, 0, [
  ⟨"Manufacturer Code", 11, .manufacturer, false, (.must 1857), "Simrad", "", 0⟩,
  ⟨"Reserved", 2, .one, false, .nil, "", "", 0⟩,
  ⟨"Industry Code", 3, .lookup, false, (.lookup "lookupIndustryCode"), "", "", 0⟩]⟩

/-- pgn_array.go:382, index 42. -/
def p42 : Pgn := ⟨"Trim Tab Sensor Calibration", "Simnet", 65289, false, 8, 0, [
  ⟨"Manufacturer Code", 11, .manufacturer, false, (.must 1857), "Simrad", "", 0⟩,
  ⟨"Reserved", 2, .one, false, .nil, "", "", 0⟩,
  ⟨"Industry Code", 3, .lookup, false, (.lookup "lookupIndustryCode"), "", "", 0⟩]⟩

/-- pgn_array.go:388, index 43. -/
def p43 : Pgn := ⟨"Paddle Wheel Speed Configuration", "Simnet", 65290, false, 8, 0, [
  ⟨"Manufacturer Code", 11, .manufacturer, false, (.must 1857), "Simrad", "", 0⟩,
  ⟨"Reserved", 2, .one, false, .nil, "", "", 0⟩,
  ⟨"Industry Code", 3, .lookup, false, (.lookup "lookupIndustryCode"), "", "", 0⟩]⟩

/-- pgn_array.go:394, index 44. -/
def p44 : Pgn := ⟨"Clear Fluid Level Warnings", "Simnet", 65292, false, 8, 0, [
  ⟨"Manufacturer Code", 11, .manufacturer, false, (.must 1857), "Simrad", "", 0⟩,
  ⟨"Reserved", 2, .one, false, .nil, "", "", 0⟩,
  ⟨"Industry Code", 3, .lookup, false, (.lookup "lookupIndustryCode"), "", "", 0⟩]⟩

/-- pgn_array.go:400, index 45. -/
def p45 : Pgn := ⟨"LGC-2000 Configuration", "Simnet", 65293, false, 8, 0, [
  ⟨"Manufacturer Code", 11, .manufacturer, false, (.must 1857), "Simrad", "", 0⟩,
  ⟨"Reserved", 2, .one, false, .nil, "", "", 0⟩,
  ⟨"Industry Code", 3, .lookup, false, (.lookup "lookupIndustryCode"), "", "", 0⟩]⟩

/-- pgn_array.go:406, index 46. -/
def p46 : Pgn := ⟨"Unknown", "Simnet", 65305, false, 8, 0, [
  ⟨"Manufacturer Code", 11, .manufacturer, false, (.must 1857), "Simrad", "", 0⟩,
  ⟨"Reserved", 2, .one, false, .nil, "", "", 0⟩,
  ⟨"Industry Code", 3, .lookup, false, (.lookup "lookupIndustryCode"), "", "", 0⟩,
  ⟨"A", 8, .one, false, .nil, "", "", 0⟩,
  ⟨"B", 8, .one, false, .nil, "", "", 0⟩,
  ⟨"C", 8, .one, false, .nil, "", "", 0⟩,
  ⟨"D", 8, .one, false, .nil, "", "", 0⟩,
  ⟨"E", 8, .one, false, .nil, "", "", 0⟩,
  ⟨"F", 8, .one, false, .nil, "", "", 0⟩]⟩

/-- pgn_array.go:418, index 47. -/
def p47 : Pgn := ⟨"Reprogram Status", "Simnet", 65325, false, 8, 0, [
  ⟨"Manufacturer Code", 11, .manufacturer, false, (.must 1857), "Simrad", "", 0⟩,
  ⟨"Reserved", 2, .one, false, .nil, "", "", 0⟩,
  ⟨"Industry Code", 3, .lookup, false, (.lookup "lookupIndustryCode"), "", "", 0⟩]⟩

/-- pgn_array.go:424, index 48. -/
def p48 : Pgn := ⟨"Analog Channel", "Simnet", 65330, false, 8, 0, [
  ⟨"Manufacturer Code", 11, .manufacturer, false, (.must 381), "B&G", "", 0⟩,
  ⟨"Reserved", 2, .one, false, .nil, "", "", 0⟩,
  ⟨"Industry Code", 3, .lookup, false, (.lookup "lookupIndustryCode"), "", "", 0⟩,
  ⟨"Channel", 9, .one, false, .nil, "", "", 0⟩,
  ⟨"Settings", 4, .one, false, .nil, "", "", 0⟩,
  ⟨"Width", 2, .one, false, .nil, "", "", 0⟩,
  ⟨"Settings", 1, .one, false, .nil, "", "", 0⟩,
  ⟨"Value", 32, .one, true, .nil, "", "", 0⟩]⟩

/-- pgn_array.go:436, index 49. -/
def p49 : Pgn := ⟨"Autopilot Mode", "Simnet", 65341, false, 8, 0, [
  ⟨"Manufacturer Code", 11, .manufacturer, false, (.must 1857), "Simrad", "", 0⟩,
  ⟨"Reserved", 2, .one, false, .nil, "", "", 0⟩,
  ⟨"Industry Code", 3, .lookup, false, (.lookup "lookupIndustryCode"), "", "", 0⟩]⟩

/-- pgn_array.go:443, index 50. -/
def p50 : Pgn := ⟨"Depth Quality Factor", "Airmar", 65408, false, 8, 0, [
  ⟨"Manufacturer Code", 11, .manufacturer, false, (.must 135), "Airmar", "", 0⟩,
  ⟨"Reserved", 2, .one, false, .nil, "", "", 0⟩,
  ⟨"Industry Code", 3, .lookup, false, (.lookup "lookupIndustryCode"), "Marine Industry", "", 0⟩,
  ⟨"SID", 8, .one, false, .nil, "", "", 0⟩,
  ⟨"Depth Quality Factor", 4, .lookup, false, (.lookup "lookupAirmarDepthQuality"), "", "", 0⟩]⟩

/-- pgn_array.go:452, index 51. -/
def p51 : Pgn := ⟨"Device Information", "Airmar", 65410, false, 8, 0, [
  ⟨"Manufacturer Code", 11, .manufacturer, false, (.must 135), "", "", 0⟩,
  ⟨"Reserved", 2, .one, false, .nil, "", "", 0⟩,
  ⟨"Industry Code", 3, .lookup, false, (.lookup "lookupIndustryCode"), "", "", 0⟩,
  ⟨"SID", 8, .one, false, .nil, "", "", 0⟩,
  ⟨"Internal Device Temperature", 16, .temperature, false, (.text "K"), "", "", 0⟩,
  ⟨"Supply Voltage", 16, (.scale "0.01"), false, (.text "V"), "", "", 0⟩,
  ⟨"Reserved", 8, .one, false, .nil, "", "", 0⟩]⟩

/-- pgn_array.go:462, index 52. -/
def p52 : Pgn := ⟨"Autopilot Mode", "Simnet", 65480, false, 8, 0, [
  ⟨"Manufacturer Code", 11, .manufacturer, false, (.must 1857), "Simrad", "", 0⟩,
  ⟨"Reserved", 2, .one, false, .nil, "", "", 0⟩,
  ⟨"Industry Code", 3, .lookup, false, (.lookup "lookupIndustryCode"), "", "", 0⟩]⟩

/-- pgn_array.go:469, index 53. -/
def p53 : Pgn := ⟨"NMEA - Request group function", "General", 126208, true, 8, 2, [
  ⟨"Function Code", 8, .integer, false, (.must 0), "Request", "", 0⟩,
  ⟨"PGN", 24, .integer, false, .nil, "Requested PGN", "", 0⟩,
  ⟨"Transmission interval", 32, .one, false, .nil, "", "", 0⟩,
  ⟨"Transmission interval offset", 16, .one, false, .nil, "", "", 0⟩,
  ⟨"# of Requested Parameters", 8, .one, false, .nil, "How many parameter pairs will follow", "", 0⟩,
  ⟨"Parameter Index", 8, .integer, false, .nil, "Parameter index", "", 0⟩,
  ⟨"Parameter Value", 0, .integer, false, .nil, "Parameter value, variable length", "", 0⟩]⟩

/-- pgn_array.go:479, index 54. -/
def p54 : Pgn := ⟨"NMEA - Command group function", "General", 126208, true, 8, 2, [
  ⟨"Function Code", 8, .integer, false, (.must 1), "Command", "", 0⟩,
  ⟨"PGN", 24, .integer, false, .nil, "Commanded or requested PGN", "", 0⟩,
  ⟨"Priority", 4, .one, false, (.lookup "lookupPriorityLevel"), "", "", 0⟩,
  ⟨"Reserved", 4, .one, false, .nil, "", "", 0⟩,
  ⟨"# of Commanded Parameters", 8, .one, false, .nil, "How many parameter pairs will follow", "", 0⟩,
  ⟨"Parameter Index", 8, .integer, false, .nil, "Parameter index", "", 0⟩,
  ⟨"Parameter Value", 0, .integer, false, .nil, "Parameter value, variable length", "", 0⟩]⟩

/-- pgn_array.go:489, index 55. -/
def p55 : Pgn := ⟨"NMEA - Acknowledge group function", "General", 126208, true, 8, 1, [
  ⟨"Function Code", 8, .integer, false, (.must 2), "Acknowledge", "", 0⟩,
  ⟨"PGN", 24, .integer, false, .nil, "Commanded or requested PGN", "", 0⟩,
  ⟨"PGN error code", 4, .one, false, .nil, "", "", 0⟩,
  ⟨"Transmission interval/Priority error code", 4, .one, false, .nil, "", "", 0⟩,
  ⟨"# of Commanded Parameters", 8, .one, false, .nil, "", "", 0⟩,
  ⟨"Parameter Error", 8, .integer, false, .nil, "", "", 0⟩]⟩

/-- pgn_array.go:499, index 56. -/
def p56 : Pgn := ⟨"Slave Response", "Maretron", 126270, false, 8, 0, [
  ⟨"Manufacturer Code", 11, .manufacturer, false, .nil, "", "", 0⟩,
  ⟨"Reserved", 2, .one, false, .nil, "", "", 0⟩,
  ⟨"Industry Code", 3, .lookup, false, (.lookup "lookupIndustryCode"), "", "", 0⟩,
  ⟨"Product Code", 16, .one, false, .nil, "0x1b2: SSC200", "", 0⟩,
  ⟨"Software Code", 16, .one, false, .nil, "", "", 0⟩,
  ⟨"Command", 8, .one, false, .nil, "0x50=Deviation calibration result", "", 0⟩,
  ⟨"Status", 8, .one, false, .nil, "", "", 0⟩]⟩

/-- pgn_array.go:509, index 57. -/
def p57 : Pgn := ⟨"PGN List (Transmit and Receive)", "Mandatory", 126464, true, 8, 1, [
  ⟨"Function Code", 8, .lookup, false, (.lookup "lookupFunctionCode"), "Transmit or receive PGN Group Function Code", "", 0⟩,
  ⟨"PGN", 24, .integer, false, .nil, "", "", 0⟩]⟩

/-- pgn_array.go:514, index 58. -/
def p58 : Pgn := ⟨"Manufacturer Proprietary: Addressable Multi-Frame", "General", 126720, true, 8, 0, [
  ⟨"Manufacturer Code", 11, .manufacturer, false, .nil, "", "", 0⟩,
  ⟨"Reserved", 2, .one, false, .nil, "", "", 0⟩,
  ⟨"Industry Code", 3, .lookup, false, (.lookup "lookupIndustryCode"), "", "", 0⟩,
  ⟨"Payload", 0, .binary, false, .nil, "", "", 0⟩]⟩

/-- pgn_array.go:521, index 59. -/
def p59 : Pgn := ⟨"Addressable Multi-Frame", "Airmar", 126720, true, 8, 0, [
  ⟨"Manufacturer Code", 11, .manufacturer, false, (.must 135), "Airmar", "", 0⟩,
  ⟨"Reserved", 2, .one, false, .nil, "", "", 0⟩,
  ⟨"Industry Code", 3, .lookup, false, (.lookup "lookupIndustryCode"), "Marine Industry", "", 0⟩,
  ⟨"Proprietary ID", 8, .integer, false, (.must 0), "", "", 0⟩]⟩

/-- pgn_array.go:529, index 60. -/
def p60 : Pgn := ⟨"Attitude Offset", "Airmar", 126720, true, 8, 0, [
  ⟨"Manufacturer Code", 11, .manufacturer, false, (.must 135), "Airmar", "", 0⟩,
  ⟨"Reserved", 2, .one, false, .nil, "", "", 0⟩,
  ⟨"Industry Code", 3, .lookup, false, (.lookup "lookupIndustryCode"), "Marine Industry", "", 0⟩,
  ⟨"Proprietary ID", 8, .integer, false, (.must 32), "Attitude Offsets", "", 0⟩,
  ⟨"Azimuth offset", 16, (.scale "RES_DEGREES"), true, (.text "deg"), "Positive: sensor rotated to port, negative: sensor rotated to starboard", "", 0⟩,
  ⟨"Pitch offset", 16, (.scale "RES_DEGREES"), true, (.text "deg"), "Positive: sensor tilted to bow, negative: sensor tilted to stern", "", 0⟩,
  ⟨"Roll offset", 16, (.scale "RES_DEGREES"), true, (.text "deg"), "Positive: sensor tilted to port, negative: sensor tilted to starboard", "", 0⟩]⟩

/-- pgn_array.go:540, index 61. -/
def p61 : Pgn := ⟨"Calibrate Compass", "Airmar", 126720, true, 8, 0, [
  ⟨"Manufacturer Code", 11, .manufacturer, false, (.must 135), "Airmar", "", 0⟩,
  ⟨"Reserved", 2, .one, false, .nil, "", "", 0⟩,
  ⟨"Industry Code", 3, .lookup, false, (.lookup "lookupIndustryCode"), "Marine Industry", "", 0⟩,
  ⟨"Proprietary ID", 8, .integer, false, (.must 33), "Calibrate Compass", "", 0⟩,
  ⟨"Calibrate Function", 8, .lookup, false, (.lookup "lookupAirmarCalibrateFunction"), "", "", 0⟩,
  ⟨"Calibration Status", 8, .lookup, false, (.lookup "lookupAirmarCalibrationStatus"), "", "", 0⟩,
  ⟨"Verify Score", 8, .integer, false, .nil, "TBD", "", 0⟩,
  ⟨"X-axis gain value", 16, (.scale "0.01"), true, .nil, "default 100, range 50 to 500", "", 0⟩,
  ⟨"Y-axis gain value", 16, (.scale "0.01"), true, .nil, "default 100, range 50 to 500", "", 0⟩,
  ⟨"Z-axis gain value", 16, (.scale "0.01"), true, .nil, "default 100, range 50 to 500", "", 0⟩,
  ⟨"X-axis linear offset", 16, (.scale "0.01"), true, (.text "Tesla"), "default 0, range -320.00 to 320.00", "", 0⟩,
  ⟨"Y-axis linear offset", 16, (.scale "0.01"), true, (.text "Tesla"), "default 0, range -320.00 to 320.00", "", 0⟩,
  ⟨"Z-axis linear offset", 16, (.scale "0.01"), true, (.text "Tesla"), "default 0, range -320.00 to 320.00", "", 0⟩,
  ⟨"X-axis angular offset", 16, (.scale "0.1"), true, (.text "deg"), "default 0, range 0 to 3600", "", 0⟩,
  ⟨"Pitch and Roll damping", 16, (.scale "0.05"), false, (.text "s"), "default 30, range 0 to 200", "", 0⟩,
  ⟨"Compass/Rate gyro damping", 16, (.scale "0.05"), true, (.text "s"), "default -30, range -2400 to 2400, negative indicates rate gyro is to be used in compass calculations", "", 0⟩]⟩

/-- pgn_array.go:560, index 62. -/
def p62 : Pgn := ⟨"True Wind Options", "Airmar", 126720, true, 8, 0, [
  ⟨"Manufacturer Code", 11, .manufacturer, false, (.must 135), "Airmar", "", 0⟩,
  ⟨"Reserved", 2, .one, false, .nil, "", "", 0⟩,
  ⟨"Industry Code", 3, .lookup, false, (.lookup "lookupIndustryCode"), "Marine Industry", "", 0⟩,
  ⟨"Proprietary ID", 8, .integer, false, (.must 34), "True Wind Options", "", 0⟩,
  ⟨"COG substition for HDG", 2, .lookup, false, (.lookup "lookupAirmarCogSubstitute"), "Allow use of COG when HDG not available?", "", 0⟩,
  ⟨"Calibration Status", 8, .lookup, false, (.lookup "lookupAirmarCalibrationStatus"), "", "", 0⟩,
  ⟨"Verify Score", 8, .integer, false, .nil, "TBD", "", 0⟩,
  ⟨"X-axis gain value", 16, (.scale "0.01"), false, .nil, "default 100, range 50 to 500", "", 0⟩,
  ⟨"Y-axis gain value", 16, (.scale "0.01"), false, .nil, "default 100, range 50 to 500", "", 0⟩,
  ⟨"Z-axis gain value", 16, (.scale "0.01"), false, .nil, "default 100, range 50 to 500", "", 0⟩,
  ⟨"X-axis linear offset", 16, (.scale "0.01"), true, (.text "Tesla"), "default 0, range -320.00 to 320.00", "", 0⟩,
  ⟨"Y-axis linear offset", 16, (.scale "0.01"), true, (.text "Tesla"), "default 0, range -320.00 to 320.00", "", 0⟩,
  ⟨"Z-axis linear offset", 16, (.scale "0.01"), true, (.text "Tesla"), "default 0, range -320.00 to 320.00", "", 0⟩,
  ⟨"X-axis angular offset", 16, (.scale "0.1"), false, (.text "deg"), "default 0, range 0 to 3600", "", 0⟩,
  ⟨"Pitch and Roll damping", 16, (.scale "0.05"), false, (.text "s"), "default 30, range 0 to 200", "", 0⟩,
  ⟨"Compass/Rate gyro damping", 16, (.scale "0.05"), true, (.text "s"), "default -30, range -2400 to 2400, negative indicates rate gyro is to be used in compass calculations", "", 0⟩]⟩

/-- pgn_array.go:580, index 63. -/
def p63 : Pgn := ⟨"Simulate Mode", "Airmar", 126720, true, 8, 0, [
  ⟨"Manufacturer Code", 11, .manufacturer, false, (.must 135), "Airmar", "", 0⟩,
  ⟨"Reserved", 2, .one, false, .nil, "", "", 0⟩,
  ⟨"Industry Code", 3, .lookup, false, (.lookup "lookupIndustryCode"), "Marine Industry", "", 0⟩,
  ⟨"Proprietary ID", 8, .integer, false, (.must 35), "Simulate Mode", "", 0⟩,
  ⟨"Simulate Mode", 2, .lookup, false, (.lookup "lookupOffOn"), "", "", 0⟩]⟩

/-- pgn_array.go:589, index 64. -/
def p64 : Pgn := ⟨"Calibrate Depth", "Airmar", 126720, true, 8, 0, [
  ⟨"Manufacturer Code", 11, .manufacturer, false, (.must 135), "Airmar", "", 0⟩,
  ⟨"Reserved", 2, .one, false, .nil, "", "", 0⟩,
  ⟨"Industry Code", 3, .lookup, false, (.lookup "lookupIndustryCode"), "Marine Industry", "", 0⟩,
  ⟨"Proprietary ID", 8, .integer, false, (.must 40), "Calibrate Depth", "", 0⟩,
  ⟨"Speed of Sound Mode", 16, (.scale "0.1"), false, (.text "m/s"), "actual allowed range is 1350.0 to 1650.0 m/s", "", 0⟩]⟩

/-- pgn_array.go:598, index 65. -/
def p65 : Pgn := ⟨"Calibrate Speed", "Airmar", 126720, true, 8, 2, [
  ⟨"Manufacturer Code", 11, .manufacturer, false, (.must 135), "Airmar", "", 0⟩,
  ⟨"Reserved", 2, .one, false, .nil, "Alignment padding", "", 0⟩,
  ⟨"Industry Code", 3, .lookup, false, (.lookup "lookupIndustryCode"), "Marine Industry", "", 0⟩,
  ⟨"Proprietary ID", 8, .integer, false, (.must 41), "Calibrate Speed", "", 0⟩,
  ⟨"Number of pairs of data points", 8, .integer, false, .nil, "actual range is 0 to 25. 254=restore default speed curve", "", 0⟩,
  ⟨"Input frequency", 16, (.scale "0.1"), false, (.text "Hz"), "", "", 0⟩,
  ⟨"Output speed", 16, (.scale "0.01"), false, (.text "m/s"), "", "", 0⟩]⟩

/-- pgn_array.go:609, index 66. -/
def p66 : Pgn := ⟨"Calibrate Temperature", "Airmar", 126720, true, 8, 2, [
  ⟨"Manufacturer Code", 11, .manufacturer, false, (.must 135), "Airmar", "", 0⟩,
  ⟨"Reserved", 2, .one, false, .nil, "", "", 0⟩,
  ⟨"Industry Code", 3, .lookup, false, (.lookup "lookupIndustryCode"), "Marine Industry", "", 0⟩,
  ⟨"Proprietary ID", 8, .integer, false, (.must 42), "Calibrate Temperature", "", 0⟩,
  ⟨"Temperature Instance", 2, .lookup, false, (.lookup "lookupAirmarTempInstance"), "", "", 0⟩,
  ⟨"Reserved", 6, .binary, false, .nil, "Reserved", "", 0⟩,
  ⟨"Temperature offset", 16, (.scale "0.1"), false, (.text "Hz"), "", "", 0⟩,
  ⟨"Temperature offset", 16, (.scale "0.001"), true, (.text "K"), "actual range is -9.999 to +9.999 K", "", 0⟩]⟩

/-- pgn_array.go:621, index 67. -/
def p67 : Pgn := ⟨"Speed Filter", "Airmar", 126720, true, 8, 2, [
  ⟨"Manufacturer Code", 11, .manufacturer, false, (.must 135), "Airmar", "", 0⟩,
  ⟨"Reserved", 2, .one, false, .nil, "", "", 0⟩,
  ⟨"Industry Code", 3, .lookup, false, (.lookup "lookupIndustryCode"), "Marine Industry", "", 0⟩,
  ⟨"Proprietary ID", 8, .integer, false, (.must 43), "Speed Filter", "", 0⟩,
  ⟨"Filter type", 4, .lookup, false, (.lookup "lookupAirmarSpeedFilter"), "", "", 0⟩,
  ⟨"Reserved", 4, .binary, false, .nil, "Reserved", "", 0⟩,
  ⟨"Sample interval", 16, (.scale "0.01"), false, (.text "s"), "", "", 0⟩,
  ⟨"Filter duration", 16, (.scale "0.01"), false, (.text "s"), "", "", 0⟩]⟩

/-- pgn_array.go:633, index 68. -/
def p68 : Pgn := ⟨"Temperature Filter", "Airmar", 126720, true, 8, 2, [
  ⟨"Manufacturer Code", 11, .manufacturer, false, (.must 135), "Airmar", "", 0⟩,
  ⟨"Reserved", 2, .one, false, .nil, "", "", 0⟩,
  ⟨"Industry Code", 3, .lookup, false, (.lookup "lookupIndustryCode"), "Marine Industry", "", 0⟩,
  ⟨"Proprietary ID", 8, .integer, false, (.must 44), "Speed Filter", "", 0⟩,
  ⟨"Filter type", 4, .lookup, false, (.lookup "lookupAirmarTempFilter"), "", "", 0⟩,
  ⟨"Reserved", 4, .binary, false, .nil, "Reserved", "", 0⟩,
  ⟨"Sample interval", 16, (.scale "0.01"), false, (.text "s"), "", "", 0⟩,
  ⟨"Filter duration", 16, (.scale "0.01"), false, (.text "s"), "", "", 0⟩]⟩

/-- pgn_array.go:645, index 69. -/
def p69 : Pgn := ⟨"NMEA 2000 options", "Airmar", 126720, true, 8, 2, [
  ⟨"Manufacturer Code", 11, .manufacturer, false, (.must 135), "Airmar", "", 0⟩,
  ⟨"Reserved", 2, .one, false, .nil, "", "", 0⟩,
  ⟨"Industry Code", 3, .lookup, false, (.lookup "lookupIndustryCode"), "Marine Industry", "", 0⟩,
  ⟨"Proprietary ID", 8, .integer, false, (.must 46), "NMEA 2000 options", "", 0⟩,
  ⟨"Transmission Interval", 2, .lookup, false, (.lookup "lookupAirmarTransmissionInterval"), "", "", 0⟩,
  ⟨"Reserved", 22, .binary, false, .nil, "Reserved", "", 0⟩]⟩

/-- pgn_array.go:655, index 70. -/
def p70 : Pgn := ⟨"System Time", "General", 126992, true, 8, 0, [
  ⟨"SID", 8, .one, false, .nil, "", "", 0⟩,
  ⟨"Source", 4, .lookup, false, (.lookup "lookupSystemTime"), "", "", 0⟩,
  ⟨"Reserved", 4, .binary, false, .nil, "Reserved", "", 0⟩,
  ⟨"Date", 16, .date, false, (.text "days"), "Days since January 1, 1970", "", 0⟩,
  ⟨"Time", 32, .time, false, (.text "s"), "Seconds since midnight", "", 0⟩]⟩

/-- pgn_array.go:664, index 71. -/
def p71 : Pgn := ⟨"Heartbeat", "General", 126993, true, 8, 0, [
  ⟨"Update Rate", 16, (.scale "0.01"), false, (.text "s"), "Data transmit offset", "", 0⟩,
  ⟨"Heartbeat Sequence Counter", 8, .one, false, .nil, "", "", 0⟩]⟩

/-- pgn_array.go:669, index 72. -/
def p72 : Pgn := ⟨"Product Information", "Mandatory", 126996, false, 134, 0, [
  ⟨"NMEA 2000 Version", 16, .one, false, .nil, "", "", 0⟩,
  ⟨"Product Code", 16, .one, false, .nil, "", "", 0⟩,
  ⟨"Model ID", 256, .ascii, false, .nil, "", "", 0⟩,
  ⟨"Software Version Code", 256, .ascii, false, .nil, "", "", 0⟩,
  ⟨"Model Version", 256, .ascii, false, .nil, "", "", 0⟩,
  ⟨"Model Serial Code", 256, .ascii, false, .nil, "", "", 0⟩,
  ⟨"Certification Level", 8, .one, false, .nil, "", "", 0⟩,
  ⟨"Load Equivalency", 8, .one, false, .nil, "", "", 0⟩]⟩

/-- pgn_array.go:680, index 73. -/
def p73 : Pgn := ⟨"Configuration Information", "General", 126998, false, 42, 0, [
  ⟨"Station ID", 16, .one, false, .nil, "", "", 0⟩,
  ⟨"Station Name", 16, .one, false, .nil, "", "", 0⟩,
  ⟨"A", 16, .one, false, .nil, "", "", 0⟩,
  ⟨"Manufacturer", 288, .ascii, false, .nil, "", "", 0⟩,
  ⟨"Installation Description #1", 16, .one, false, .nil, "", "", 0⟩,
  ⟨"Installation Description #2", 16, .one, false, .nil, "", "", 0⟩]⟩

/-- pgn_array.go:694, index 74. -/
def p74 : Pgn := ⟨"Alert", "Alert", 126983, true, 27, 0, [
  ⟨"Alert Type", 4, .one, false, (.lookup "lookupAlertType"), "", "", 0⟩,
  ⟨"Alert Category", 4, .one, false, (.lookup "lookupAlertCategory"), "", "", 0⟩,
  ⟨"Alert System", 8, .one, false, .nil, "", "", 0⟩,
  ⟨"Alert Sub-System", 8, .one, false, .nil, "", "", 0⟩,
  ⟨"Alert ID", 16, .one, false, .nil, "", "", 0⟩,
  ⟨"Data Source Network ID NAME", 64, .one, false, .nil, "", "", 0⟩,
  ⟨"Data Source Instance", 8, .one, false, .nil, "", "", 0⟩,
  ⟨"Data Source Index", 8, .one, false, .nil, "", "", 0⟩,
  ⟨"Alert Occurence Number", 8, .one, false, .nil, "", "", 0⟩,
  ⟨"Temporary Silence Status", 1, .one, false, (.lookup "lookupSilenceStatus"), "", "", 0⟩,
  ⟨"Acknowledge Status", 1, .one, false, (.lookup "lookupAcknowledgeStatus"), "", "", 0⟩,
  ⟨"Escalation Status", 1, .one, false, (.lookup "lookupEscalationStatus"), "", "", 0⟩,
  ⟨"Temporary Silence Support", 1, .one, false, (.lookup "lookupSupport"), "", "", 0⟩,
  ⟨"Acknowledge Support", 1, .one, false, (.lookup "lookupSupport"), "", "", 0⟩,
  ⟨"Escalation Support", 1, .one, false, (.lookup "lookupSupport"), "", "", 0⟩,
  ⟨"Reserved", 2, .binary, false, .nil, "Reserved", "", 0⟩,
  ⟨"Acknowledge Source Network ID NAME", 64, .one, false, .nil, "", "", 0⟩,
  ⟨"Trigger Condition", 4, .one, false, (.lookup "lookupTriggerCondition"), "", "", 0⟩,
  ⟨"Threshold Status", 4, .one, false, (.lookup "lookupThresholdStatus"), "", "", 0⟩,
  ⟨"Alert Priority", 8, .one, false, .nil, "", "", 0⟩,
  ⟨"Alert State", 8, .one, false, (.lookup "lookupAlertState"), "", "", 0⟩]⟩

/-- pgn_array.go:718, index 75. -/
def p75 : Pgn := ⟨"Heading/Track Control", "Steering", 127237, true, 21, 0, [
  ⟨"Rudder Limit Exceeded", 2, .one, false, .nil, "", "", 0⟩,
  ⟨"Off-Heading Limit Exceeded", 2, .one, false, .nil, "", "", 0⟩,
  ⟨"Off-Track Limit Exceeded", 2, .one, false, .nil, "", "", 0⟩,
  ⟨"Override", 2, .one, false, .nil, "", "", 0⟩,
  ⟨"Steering Mode", 3, .one, false, (.lookup "lookupSteeringMode"), "", "", 0⟩,
  ⟨"Turn Mode", 3, .one, false, (.lookup "lookupTurnMode"), "", "", 0⟩,
  ⟨"Heading Reference", 2, .one, false, (.lookup "lookupDirectionReference"), "", "", 0⟩,
  ⟨"Reserved", 5, .one, false, .nil, "", "", 0⟩,
  ⟨"Commanded Rudder Direction", 3, .one, false, (.lookup "lookupCommandedRudderDirection"), "", "", 0⟩,
  ⟨"Commanded Rudder Angle", 16, (.scale "RES_DEGREES"), true, (.text "deg"), "", "", 0⟩,
  ⟨"Heading-To-Steer (Course)", 16, (.scale "RES_DEGREES"), false, (.text "deg"), "", "", 0⟩,
  ⟨"Track", 16, (.scale "RES_DEGREES"), false, (.text "deg"), "", "", 0⟩,
  ⟨"Rudder Limit", 16, (.scale "RES_DEGREES"), false, (.text "deg"), "", "", 0⟩,
  ⟨"Off-Heading Limit", 16, (.scale "RES_DEGREES"), false, (.text "deg"), "", "", 0⟩,
  ⟨"Radius of Turn Order", 16, (.scale "RES_DEGREES"), true, (.text "deg"), "", "", 0⟩,
  ⟨"Rate of Turn Order", 16, (.scale "RES_ROTATION"), true, (.text "deg/s"), "", "", 0⟩,
  ⟨"Off-Track Limit", 16, .one, true, (.text "m"), "", "", 0⟩,
  ⟨"Vessel Heading", 16, (.scale "RES_DEGREES"), false, (.text "deg"), "", "", 0⟩]⟩

/-- pgn_array.go:740, index 76. -/
def p76 : Pgn := ⟨"Rudder", "Steering", 127245, true, 8, 0, [
  ⟨"Rudder Instance", 8, .one, false, .nil, "", "", 0⟩,
  ⟨"Direction Order", 3, .one, false, (.lookup "lookupCommandedRudderDirection"), "", "", 0⟩,
  ⟨"Reserved", 5, .binary, false, .nil, "Reserved", "", 0⟩,
  ⟨"Angle Order", 16, (.scale "RES_DEGREES"), true, (.text "deg"), "", "", 0⟩,
  ⟨"Position", 16, (.scale "RES_DEGREES"), true, (.text "deg"), "", "", 0⟩]⟩

/-- pgn_array.go:751, index 77. -/
def p77 : Pgn := ⟨"Vessel Heading", "Steering", 127250, true, 8, 0, [
  ⟨"SID", 8, .one, false, .nil, "", "", 0⟩,
  ⟨"Heading", 16, (.scale "RES_DEGREES"), false, (.text "deg"), "", "", 0⟩,
  ⟨"Deviation", 16, (.scale "RES_DEGREES"), true, (.text "deg"), "", "", 0⟩,
  ⟨"Variation", 16, (.scale "RES_DEGREES"), true, (.text "deg"), "", "", 0⟩,
  ⟨"Reference", 2, .lookup, false, (.lookup "lookupDirectionReference"), "", "", 0⟩]⟩

/-- pgn_array.go:761, index 78. -/
def p78 : Pgn := ⟨"Rate of Turn", "Steering", 127251, true, 5, 0, [
  ⟨"SID", 8, .one, false, .nil, "", "", 0⟩,
  ⟨"Rate", 32, (.scale "RES_ROTATION * 0.0001"), true, (.text "deg/s"), "", "navigation.rateOfTurn", 0⟩]⟩

/-- pgn_array.go:766, index 79. -/
def p79 : Pgn := ⟨"Attitude", "Steering", 127257, true, 7, 0, [
  ⟨"SID", 8, .one, false, .nil, "", "", 0⟩,
  ⟨"Yaw", 16, (.scale "RES_DEGREES"), true, (.text "deg"), "", "navigation.attitude.yaw", 0⟩,
  ⟨"Pitch", 16, (.scale "RES_DEGREES"), true, (.text "deg"), "", "navigation.attitude.pitch", 0⟩,
  ⟨"Roll", 16, (.scale "RES_DEGREES"), true, (.text "deg"), "", "navigation.attitude.roll", 0⟩]⟩

/-- pgn_array.go:775, index 80. -/
def p80 : Pgn := ⟨"Magnetic Variation", "Steering", 127258, true, 6, 0, [
  ⟨"SID", 8, .one, false, .nil, "", "", 0⟩,
  ⟨"Source", 4, .lookup, false, (.lookup "lookupMagneticVariation"), "", "", 0⟩,
  ⟨"Reserved", 4, .binary, false, .nil, "Reserved", "", 0⟩,
  ⟨"Age of service", 16, .date, false, (.text "days"), "Days since January 1, 1970", "", 0⟩,
  ⟨"Variation", 16, (.scale "RES_DEGREES"), true, (.text "deg"), "", "navigation.magneticVariation", 0⟩]⟩

/-- pgn_array.go:787, index 81. -/
def p81 : Pgn := ⟨"Engine Parameters, Rapid Update", "Propulsion", 127488, true, 8, 0, [
  ⟨"Engine Instance", 8, .lookup, false, (.lookup "lookupEngineInstance"), "", "", 0⟩,
  ⟨"Engine Speed", 16, .integer, false, (.text "rpm"), "", "", 0⟩,
  ⟨"Engine Boost Pressure", 16, .pressure, false, (.text "hPa"), "", "", 0⟩,
  ⟨"Engine Tilt/Trim", 8, .one, true, .nil, "", "", 0⟩]⟩

/-- pgn_array.go:794, index 82. -/
def p82 : Pgn := ⟨"Engine Parameters, Dynamic", "Propulsion", 127489, true, 26, 0, [
  ⟨"Engine Instance", 8, .lookup, false, (.lookup "lookupEngineInstance"), "", "", 0⟩,
  ⟨"Oil pressure", 16, .pressure, false, (.text "hPa"), "", "", 0⟩,
  ⟨"Oil temperature", 16, .temperature, false, (.text "K"), "", "", 0⟩,
  ⟨"Temperature", 16, .temperature, false, (.text "K"), "", "", 0⟩,
  ⟨"Alternator Potential", 16, (.scale "0.01"), false, (.text "V"), "", "", 0⟩,
  ⟨"Fuel Rate", 16, (.scale "0.1"), true, (.text "L/h"), "", "", 0⟩,
  ⟨"Total Engine hours", 32, .one, false, (.text "s"), "", "", 0⟩,
  ⟨"Coolant Pressure", 16, .pressure, false, (.text "hPa"), "", "", 0⟩,
  ⟨"Fuel Pressure", 16, .one, false, .nil, "", "", 0⟩,
  ⟨"Reserved", 8, .one, false, .nil, "", "", 0⟩,
  ⟨"Discrete Status 1", 16, .integer, false, .nil, "", "", 0⟩,
  ⟨"Discrete Status 2", 16, .integer, false, .nil, "", "", 0⟩,
  ⟨"Percent Engine Load", 8, .integer, true, (.text "%%"), "", "", 0⟩,
  ⟨"Percent Engine Torque", 8, .integer, true, (.text "%%"), "", "", 0⟩]⟩

/-- pgn_array.go:811, index 83. -/
def p83 : Pgn := ⟨"Transmission Parameters, Dynamic", "Propulsion", 127493, true, 7, 0, [
  ⟨"Engine Instance", 2, .lookup, false, (.lookup "lookupEngineInstance"), "", "", 0⟩,
  ⟨"Transmission Gear", 2, .lookup, false, (.lookup "lookupGearStatus"), "", "", 0⟩,
  ⟨"Reserved", 4, .one, false, .nil, "", "", 0⟩,
  ⟨"Oil pressure", 16, .pressure, false, (.text "hPa"), "", "", 0⟩,
  ⟨"Oil temperature", 16, .temperature, false, (.text "K"), "", "", 0⟩,
  ⟨"Discrete Status 1", 8, .integer, false, .nil, "", "", 0⟩]⟩

/-- pgn_array.go:820, index 84. -/
def p84 : Pgn := ⟨"Trip Parameters, Vessel", "Propulsion", 127496, true, 10, 0, [
  ⟨"Time to Empty", 32, (.scale "0.001"), false, (.text "s"), "", "", 0⟩,
  ⟨"Distance to Empty", 32, (.scale "0.01"), false, (.text "m"), "", "", 0⟩,
  ⟨"Estimated Fuel Remaining", 16, .one, false, (.text "L"), "", "", 0⟩,
  ⟨"Trip Run Time", 32, (.scale "0.001"), false, (.text "s"), "", "", 0⟩]⟩

/-- pgn_array.go:827, index 85. -/
def p85 : Pgn := ⟨"Trip Parameters, Engine", "Propulsion", 127497, true, 9, 0, [
  ⟨"Engine Instance", 8, .lookup, false, (.lookup "lookupEngineInstance"), "", "", 0⟩,
  ⟨"Trip Fuel Used", 16, .one, false, (.text "L"), "", "", 0⟩,
  ⟨"Fuel Rate, Average", 16, (.scale "0.1"), true, (.text "L/h"), "", "", 0⟩,
  ⟨"Fuel Rate, Economy", 16, (.scale "0.1"), true, (.text "L/h"), "", "", 0⟩,
  ⟨"Instantaneous Fuel Economy", 16, (.scale "0.1"), true, (.text "L/h"), "", "", 0⟩]⟩

/-- pgn_array.go:835, index 86. -/
def p86 : Pgn := ⟨"Engine Parameters, Static", "Propulsion", 127498, true, 8, 0, [
  ⟨"Engine Instance", 8, .lookup, false, (.lookup "lookupEngineInstance"), "", "", 0⟩,
  ⟨"Rated Engine Speed", 16, .one, false, .nil, "", "", 0⟩,
  ⟨"VIN", 8, .one, false, .nil, "", "", 0⟩,
  ⟨"Software ID", 16, .one, false, .nil, "", "", 0⟩]⟩

/-- pgn_array.go:842, index 87. -/
def p87 : Pgn := ⟨"Binary Switch Bank Status", "Power", 127501, false, 8, 1, [
  ⟨"Indicator Bank Instance", 8, .one, false, .nil, "", "", 0⟩,
  ⟨"Indicator", 2, .lookup, false, (.lookup "lookupOffOn"), "", "", 0⟩]⟩

/-- pgn_array.go:847, index 88. -/
def p88 : Pgn := ⟨"Switch Bank Control", "Power", 127502, false, 8, 1, [
  ⟨"Switch Bank Instance", 8, .one, false, .nil, "", "", 0⟩,
  ⟨"Switch", 2, .lookup, false, (.lookup "lookupOffOn"), "", "", 0⟩]⟩

/-- pgn_array.go:853, index 89. -/
def p89 : Pgn := ⟨"AC Input Status", "Power", 127503, true, 8, 10, [
  ⟨"AC Instance", 8, .one, false, .nil, "", "", 0⟩,
  ⟨"Number of Lines", 8, .one, false, .nil, "", "", 0⟩,
  ⟨"Line", 2, .lookup, false, (.lookup "lookupLine"), "", "", 0⟩,
  ⟨"Acceptability", 2, .lookup, false, (.lookup "lookupAcceptability"), "", "", 0⟩,
  ⟨"Reserved", 4, .one, false, .nil, "", "", 0⟩,
  ⟨"Voltage", 16, (.scale "0.01"), false, (.text "V"), "", "", 0⟩,
  ⟨"Current", 16, (.scale "0.1"), false, (.text "A"), "", "", 0⟩,
  ⟨"Frequency", 16, (.scale "0.01"), false, (.text "Hz"), "", "", 0⟩,
  ⟨"Breaker Size", 16, (.scale "0.1"), false, (.text "A"), "", "", 0⟩,
  ⟨"Real Power", 32, .integer, false, (.text "W"), "", "", 0⟩,
  ⟨"Reactive Power", 32, .integer, false, (.text "VAr"), "", "", 0⟩,
  ⟨"Power Factor", 8, (.scale "0.01"), false, .nil, "", "", 0⟩]⟩

/-- pgn_array.go:869, index 90. -/
def p90 : Pgn := ⟨"AC Output Status", "Power", 127504, true, 8, 10, [
  ⟨"AC Instance", 8, .one, false, .nil, "", "", 0⟩,
  ⟨"Number of Lines", 8, .one, false, .nil, "", "", 0⟩,
  ⟨"Line", 2, .lookup, false, (.lookup "lookupLine"), "", "", 0⟩,
  ⟨"Waveform", 3, .lookup, false, (.lookup "lookupWaveform"), "", "", 0⟩,
  ⟨"Reserved", 3, .one, false, .nil, "", "", 0⟩,
  ⟨"Voltage", 16, (.scale "0.01"), false, (.text "V"), "", "", 0⟩,
  ⟨"Current", 16, (.scale "0.1"), false, (.text "A"), "", "", 0⟩,
  ⟨"Frequency", 16, (.scale "0.01"), false, (.text "Hz"), "", "", 0⟩,
  ⟨"Breaker Size", 16, (.scale "0.1"), false, (.text "A"), "", "", 0⟩,
  ⟨"Real Power", 32, .integer, false, (.text "W"), "", "", 0⟩,
  ⟨"Reactive Power", 32, .integer, false, (.text "VAr"), "", "", 0⟩,
  ⟨"Power Factor", 8, (.scale "0.01"), false, .nil, "", "", 0⟩]⟩

/-- pgn_array.go:886, index 91. -/
def p91 : Pgn := ⟨"Fluid Level", "General", 127505, true, 7, 0, [
  ⟨"Instance", 4, .one, false, .nil, "", "", 0⟩,
  ⟨"Type", 4, .lookup, false, (.lookup "lookupTankType"), "", "", 0⟩,
  ⟨"Level", 16, (.scale "100.0 / 25000"), false, (.text "%%"), "", "", 0⟩,
  ⟨"Capacity", 32, (.scale "0.1"), false, (.text "L"), "", "", 0⟩]⟩

/-- pgn_array.go:893, index 92. -/
def p92 : Pgn := ⟨"DC Detailed Status", "Power", 127506, false, 8, 0, [
  ⟨"SID", 8, .one, false, .nil, "", "", 0⟩,
  ⟨"DC Instance", 8, .one, false, .nil, "", "", 0⟩,
  ⟨"DC Type", 8, .one, false, .nil, "", "", 0⟩,
  ⟨"State of Charge", 8, .one, false, .nil, "", "", 0⟩,
  ⟨"State of Health", 8, .one, false, .nil, "", "", 0⟩,
  ⟨"Time Remaining", 16, .one, false, .nil, "", "", 0⟩,
  ⟨"Ripple Voltage", 16, (.scale "0.01"), false, (.text "V"), "", "", 0⟩]⟩

/-- pgn_array.go:903, index 93. -/
def p93 : Pgn := ⟨"Charger Status", "Power", 127507, false, 8, 0, [
  ⟨"Charger Instance", 8, .one, false, .nil, "", "", 0⟩,
  ⟨"Battery Instance", 8, .one, false, .nil, "", "", 0⟩,
  ⟨"Operating State", 8, .one, false, .nil, "", "", 0⟩,
  ⟨"Charge Mode", 8, .one, false, .nil, "", "", 0⟩,
  ⟨"Charger Enable/Disable", 2, .one, false, .nil, "", "", 0⟩,
  ⟨"Equalization Pending", 2, .one, false, .nil, "", "", 0⟩,
  ⟨"Reserved", 4, .one, false, .nil, "", "", 0⟩,
  ⟨"Equalization Time Remaining", 16, .one, false, .nil, "", "", 0⟩]⟩

/-- pgn_array.go:914, index 94. -/
def p94 : Pgn := ⟨"Battery Status", "Power", 127508, true, 8, 0, [
  ⟨"Battery Instance", 8, .one, false, .nil, "", "", 0⟩,
  ⟨"Voltage", 16, (.scale "0.01"), true, (.text "V"), "", "", 0⟩,
  ⟨"Current", 16, (.scale "0.1"), true, (.text "A"), "", "", 0⟩,
  ⟨"Temperature", 16, .temperature, false, (.text "K"), "", "", 0⟩,
  ⟨"SID", 8, .one, false, .nil, "", "", 0⟩]⟩

/-- pgn_array.go:922, index 95. -/
def p95 : Pgn := ⟨"Inverter Status", "Power", 127509, false, 8, 0, [
  ⟨"Inverter Instance", 8, .one, false, .nil, "", "", 0⟩,
  ⟨"AC Instance", 8, .one, false, .nil, "", "", 0⟩,
  ⟨"DC Instance", 8, .one, false, .nil, "", "", 0⟩,
  ⟨"Operating State", 4, .lookup, false, (.lookup "lookupStandbyOn"), "", "", 0⟩,
  ⟨"Inverter", 2, .lookup, false, (.lookup "lookupStandbyOn"), "", "", 0⟩]⟩

/-- pgn_array.go:930, index 96. -/
def p96 : Pgn := ⟨"Charger Configuration Status", "Power", 127510, false, 8, 0, [
  ⟨"Charger Instance", 8, .one, false, .nil, "", "", 0⟩,
  ⟨"Battery Instance", 8, .one, false, .nil, "", "", 0⟩,
  ⟨"Charger Enable/Disable", 2, .one, false, .nil, "", "", 0⟩,
  ⟨"Reserved", 6, .one, false, .nil, "", "", 0⟩,
  ⟨"Charge Current Limit", 16, (.scale "0.1"), false, (.text "A"), "", "", 0⟩,
  ⟨"Charging Algorithm", 8, .one, false, .nil, "", "", 0⟩,
  ⟨"Charger Mode", 8, .one, false, .nil, "", "", 0⟩,
  ⟨"Estimated Temperature", 16, .temperature, false, (.text "K"), "When no sensor present", "", 0⟩,
  ⟨"Equalize One Time Enable/Disable", 4, .one, false, .nil, "", "", 0⟩,
  ⟨"Over Charge Enable/Disable", 4, .one, false, .nil, "", "", 0⟩,
  ⟨"Equalize Time", 16, .one, false, .nil, "", "", 0⟩]⟩

/-- pgn_array.go:944, index 97. -/
def p97 : Pgn := ⟨"Inverter Configuration Status", "Power", 127511, false, 8, 0, [
  ⟨"Inverter Instance", 8, .one, false, .nil, "", "", 0⟩,
  ⟨"AC Instance", 8, .one, false, .nil, "", "", 0⟩,
  ⟨"DC Instance", 8, .one, false, .nil, "", "", 0⟩,
  ⟨"Inverter Enable/Disable", 2, .one, false, .nil, "", "", 0⟩,
  ⟨"Inverter Mode", 8, .one, false, .nil, "", "", 0⟩,
  ⟨"Load Sense Enable/Disable", 8, .one, false, .nil, "", "", 0⟩,
  ⟨"Load Sense Power Threshold", 8, .one, false, .nil, "", "", 0⟩,
  ⟨"Load Sense Interval", 8, .one, false, .nil, "", "", 0⟩]⟩

/-- pgn_array.go:955, index 98. -/
def p98 : Pgn := ⟨"AGS Configuration Status", "Power", 127512, false, 8, 0, [
  ⟨"AGS Instance", 8, .one, false, .nil, "", "", 0⟩,
  ⟨"Generator Instance", 8, .one, false, .nil, "", "", 0⟩,
  ⟨"AGS Mode", 8, .one, false, .nil, "", "", 0⟩]⟩

/-- pgn_array.go:961, index 99. -/
def p99 : Pgn := ⟨"Battery Configuration Status", "Power", 127513, false, 8, 0, [
  ⟨"Battery Instance", 8, .one, false, .nil, "", "", 0⟩,
  ⟨"Battery Type", 8, .one, false, .nil, "", "", 0⟩,
  ⟨"Supports Equalization", 2, .one, false, .nil, "", "", 0⟩,
  ⟨"Reserved", 6, .one, false, .nil, "", "", 0⟩,
  ⟨"Nominal Voltage", 16, (.scale "0.01"), false, (.text "V"), "", "", 0⟩,
  ⟨"Chemistry", 8, .one, false, .nil, "", "", 0⟩,
  ⟨"Capacity", 16, .one, false, .nil, "", "", 0⟩,
  ⟨"Temperature Coefficient", 16, .one, false, .nil, "", "", 0⟩,
  ⟨"Peukert Exponent", 16, .one, false, .nil, "", "", 0⟩,
  ⟨"Charge Efficiency Factor", 16, .one, false, .nil, "", "", 0⟩]⟩

/-- pgn_array.go:974, index 100. -/
def p100 : Pgn := ⟨"AGS Status", "Power", 127514, false, 8, 0, [
  ⟨"AGS Instance", 8, .one, false, .nil, "", "", 0⟩,
  ⟨"Generator Instance", 8, .one, false, .nil, "", "", 0⟩,
  ⟨"AGS Operating State", 8, .one, false, .nil, "", "", 0⟩,
  ⟨"Generator State", 8, .one, false, .nil, "", "", 0⟩,
  ⟨"Generator On Reason", 8, .one, false, .nil, "", "", 0⟩,
  ⟨"Generator Off Reason", 8, .one, false, .nil, "", "", 0⟩]⟩

/-- pgn_array.go:984, index 101. -/
def p101 : Pgn := ⟨"Speed", "Propulsion", 128259, true, 6, 0, [
  ⟨"SID", 8, .one, false, .nil, "", "", 0⟩,
  ⟨"Speed Water Referenced", 16, (.scale "0.01"), false, (.text "m/s"), "", "navigation.speedThroughWater", 0⟩,
  ⟨"Speed Ground Referenced", 16, (.scale "0.01"), false, (.text "m/s"), "", "navigation.speedOverGround", 0⟩,
  ⟨"Speed Water Referenced Type", 8, .lookup, false, (.lookup "lookupSpeedReference"), "", "", 0⟩,
  ⟨"Speed Direction", 4, .lookup, false, (.lookup "lookupSpeedDirection"), "", "", 0⟩,
  ⟨"Reserved", 4, .one, false, .nil, "", "", 0⟩]⟩

/-- pgn_array.go:994, index 102. -/
def p102 : Pgn := ⟨"Water Depth", "Navigation", 128267, true, 5, 0, [
  ⟨"SID", 8, .one, false, .nil, "", "", 0⟩,
  ⟨"Depth", 32, (.scale "0.01"), false, (.text "m"), "Depth below transducer", "environment.depth.belowTransducer", 0⟩,
  ⟨"Offset", 16, (.scale "0.001"), true, (.text "m"), "Distance between transducer and surface (positive) or keel (negative)", "", 0⟩]⟩

/-- pgn_array.go:1001, index 103. -/
def p103 : Pgn := ⟨"Distance Log", "Navigation", 128275, true, 14, 0, [
  ⟨"Date", 16, .date, false, (.text "days"), "Days since January 1, 1970", "", 0⟩,
  ⟨"Time", 32, .time, false, (.text "s"), "Seconds since midnight", "", 0⟩,
  ⟨"Log", 32, .one, false, (.text "m"), "Total cumulative distance", "navigation.log", 0⟩,
  ⟨"Trip Log", 32, .one, false, (.text "m"), "Distance since last reset", "navigation.logTrip", 0⟩]⟩

/-- pgn_array.go:1008, index 104. -/
def p104 : Pgn := ⟨"Tracked Target Data", "Navigation", 128520, true, 27, 0, [
  ⟨"SID", 8, .one, false, .nil, "", "", 0⟩,
  ⟨"Target ID #", 8, .one, false, .nil, "Number of route, waypoint, event, mark, etc.", "", 0⟩,
  ⟨"Track Status", 2, .lookup, false, (.lookup "lookupTrackStatus"), "", "", 0⟩,
  ⟨"Reported Target", 1, .lookup, false, (.lookup "lookupYesNo"), "", "", 0⟩,
  ⟨"Target Acquisition", 1, .lookup, false, (.lookup "lookupTargetAcquisition"), "", "", 0⟩,
  ⟨"Bearing Reference", 2, .lookup, false, (.lookup "lookupDirectionReference"), "", "", 0⟩,
  ⟨"Reserved", 2, .one, false, .nil, "", "", 0⟩,
  ⟨"Bearing", 16, (.scale "RES_DEGREES"), false, (.text "deg"), "", "", 0⟩,
  ⟨"Distance", 32, (.scale "0.001"), false, (.text "m"), "", "", 0⟩,
  ⟨"Course", 16, (.scale "RES_DEGREES"), false, (.text "deg"), "", "", 0⟩,
  ⟨"Speed", 16, (.scale "0.01"), false, (.text "m/s"), "", "", 0⟩,
  ⟨"CPA", 32, (.scale "0.01"), false, (.text "m"), "", "", 0⟩,
  ⟨"TCPA", 32, (.scale "0.001"), true, (.text "s"), "negative = time elapsed since event, positive = time to go", "", 0⟩,
  ⟨"UTC of Fix", 32, .time, false, (.text "s"), "Seconds since midnight", "", 0⟩,
  ⟨"Name", 2040, .ascii, false, .nil, "", "", 0⟩]⟩

/-- pgn_array.go:1026, index 105. -/
def p105 : Pgn := ⟨"Position, Rapid Update", "Navigation", 129025, true, 8, 0, [
  ⟨"Latitude", 32, .latitude, true, (.text "deg"), "", "navigation.position.latitude", 0⟩,
  ⟨"Longitude", 32, .longitude, true, (.text "deg"), "", "navigation.position.longitude", 0⟩]⟩

/-- pgn_array.go:1032, index 106. -/
def p106 : Pgn := ⟨"COG & SOG, Rapid Update", "Navigation", 129026, true, 8, 0, [
  ⟨"SID", 8, .one, false, .nil, "", "", 0⟩,
  ⟨"COG Reference", 2, .lookup, false, (.lookup "lookupDirectionReference"), "", "", 0⟩,
  ⟨"Reserved", 6, .binary, false, .nil, "Reserved", "", 0⟩,
  ⟨"COG", 16, (.scale "RES_DEGREES"), false, (.text "deg"), "", "", 0⟩,
  ⟨"SOG", 16, (.scale "0.01"), false, (.text "m/s"), "", "", 0⟩,
  ⟨"Reserved", 16, .binary, false, .nil, "Reserved", "", 0⟩]⟩

/-- pgn_array.go:1041, index 107. -/
def p107 : Pgn := ⟨"Position Delta, Rapid Update", "Navigation", 129027, false, 8, 0, [
  ⟨"SID", 8, .one, false, .nil, "", "", 0⟩,
  ⟨"Time Delta", 16, .one, false, .nil, "", "", 0⟩,
  ⟨"Latitude Delta", 16, .one, true, .nil, "", "", 0⟩,
  ⟨"Longitude Delta", 16, .one, true, .nil, "", "", 0⟩]⟩

/-- pgn_array.go:1048, index 108. -/
def p108 : Pgn := ⟨"Altitude Delta, Rapid Update", "Navigation", 129028, false, 8, 0, [
  ⟨"SID", 8, .one, false, .nil, "", "", 0⟩,
  ⟨"Time Delta", 16, .one, true, .nil, "", "", 0⟩,
  ⟨"GNSS Quality", 2, .one, false, .nil, "", "", 0⟩,
  ⟨"Direction", 2, .one, false, .nil, "", "", 0⟩,
  ⟨"Reserved", 4, .binary, false, .nil, "Reserved", "", 0⟩,
  ⟨"Course Over Ground", 32, (.scale "RES_DEGREES"), false, (.text "deg"), "", "", 0⟩,
  ⟨"Altitude Delta", 16, .one, true, .nil, "", "", 0⟩]⟩

/-- pgn_array.go:1059, index 109. -/
def p109 : Pgn := ⟨"GNSS Position Data", "Navigation", 129029, true, 51, 3, [
  ⟨"SID", 8, .one, false, .nil, "", "", 0⟩,
  ⟨"Date", 16, .date, false, (.text "days"), "Days since January 1, 1970", "", 0⟩,
  ⟨"Time", 32, .time, false, (.text "s"), "Seconds since midnight", "", 0⟩,
  ⟨"Latitude", 64, .latitude, true, (.text "deg"), "", "", 0⟩,
  ⟨"Longitude", 64, .longitude, true, (.text "deg"), "", "", 0⟩,
  ⟨"Altitude", 64, (.scale "1e-6"), true, (.text "m"), "", "", 0⟩,
  ⟨"GNSS type", 4, .lookup, false, (.lookup "lookupGns"), "", "", 0⟩,
  ⟨"Method", 4, .lookup, false, (.lookup "lookupGnsMethod"), "", "", 0⟩,
  ⟨"Integrity", 2, .lookup, false, (.lookup "lookupGnsIntegrity"), "", "", 0⟩,
  ⟨"Reserved", 6, .binary, false, .nil, "Reserved", "", 0⟩,
  ⟨"Number of SVs", 8, .one, false, .nil, "Number of satellites used in solution", "", 0⟩,
  ⟨"HDOP", 16, (.scale "0.01"), true, .nil, "Horizontal dilution of precision", "", 0⟩,
  ⟨"PDOP", 16, (.scale "0.01"), true, .nil, "Probable dilution of precision", "", 0⟩,
  ⟨"Geoidal Separation", 16, (.scale "0.01"), false, (.text "m"), "Geoidal Separation", "", 0⟩,
  ⟨"Reference Stations", 8, .one, false, .nil, "Number of reference stations", "", 0⟩,
  ⟨"Reference Station Type", 4, .lookup, false, (.lookup "lookupGns"), "", "", 0⟩,
  ⟨"Reference Station ID", 12, .one, false, .nil, "", "", 0⟩,
  ⟨"Age of DGNSS Corrections", 16, (.scale "0.01"), false, (.text "s"), "", "", 0⟩]⟩

/-- pgn_array.go:1080, index 110. -/
def p110 : Pgn := ⟨"Time & Date", "Navigation", 129033, true, 8, 0, [
  ⟨"Date", 16, .date, false, (.text "days"), "Days since January 1, 1970", "", 0⟩,
  ⟨"Time", 32, .time, false, (.text "seconds"), "Seconds since midnight", "", 0⟩,
  ⟨"Local Offset", 16, .integer, true, (.text "minutes"), "Minutes", "", 0⟩]⟩

/-- pgn_array.go:1086, index 111. -/
def p111 : Pgn := ⟨"AIS Class A Position Report", "AIS", 129038, true, 27, 0, [
  ⟨"Message ID", 6, .one, false, .nil, "", "", 0⟩,
  ⟨"Repeat Indicator", 2, .lookup, false, (.lookup "lookupRepeatIndicator"), "", "", 0⟩,
  ⟨"User ID", 32, .integer, false, (.text "MMSI"), "", "", 0⟩,
  ⟨"Longitude", 32, .longitude, true, (.text "deg"), "", "", 0⟩,
  ⟨"Latitude", 32, .latitude, true, (.text "deg"), "", "", 0⟩,
  ⟨"Position Accuracy", 1, .lookup, false, (.lookup "lookupPositionAccuracy"), "", "", 0⟩,
  ⟨"RAIM", 1, .lookup, false, (.lookup "lookupAisRAIM"), "", "", 0⟩,
  ⟨"Time Stamp", 6, .lookup, false, (.lookup "lookupTimeStamp"), "0-59 = UTC second when the report was generated", "", 0⟩,
  ⟨"COG", 16, (.scale "RES_DEGREES"), false, (.text "deg"), "", "", 0⟩,
  ⟨"SOG", 16, (.scale "0.01"), false, (.text "m/s"), "", "", 0⟩,
  ⟨"Communication State", 19, .binary, false, .nil, "Information used by the TDMA slot allocation algorithm and synchronization information", "", 0⟩,
  ⟨"AIS Transceiver information", 5, .lookup, false, (.lookup "lookupAisTransceiver"), "", "", 0⟩,
  ⟨"Heading", 16, (.scale "RES_DEGREES"), false, (.text "deg"), "True heading", "", 0⟩,
  ⟨"Rate of Turn", 16, (.scale "RES_ROTATION"), true, (.text "deg/s"), "", "", 0⟩,
  ⟨"Nav Status", 8, .lookup, false, (.lookup "lookupNavStatus"), "", "", 0⟩,
  ⟨"Reserved for Regional Applications", 8, .one, false, .nil, "", "", 0⟩,
  ⟨"Spare", 8, .one, false, .nil, "", "", 0⟩]⟩

/-- pgn_array.go:1106, index 112. -/
def p112 : Pgn := ⟨"AIS Class B Position Report", "AIS", 129039, true, 26, 0, [
  ⟨"Message ID", 6, .one, false, .nil, "", "", 0⟩,
  ⟨"Repeat Indicator", 2, .lookup, false, (.lookup "lookupRepeatIndicator"), "", "", 0⟩,
  ⟨"User ID", 32, .integer, false, (.text "MMSI"), "", "", 0⟩,
  ⟨"Longitude", 32, .longitude, true, (.text "deg"), "", "", 0⟩,
  ⟨"Latitude", 32, .latitude, true, (.text "deg"), "", "", 0⟩,
  ⟨"Position Accuracy", 1, .lookup, false, (.lookup "lookupPositionAccuracy"), "", "", 0⟩,
  ⟨"RAIM", 1, .lookup, false, (.lookup "lookupAisRAIM"), "", "", 0⟩,
  ⟨"Time Stamp", 6, .lookup, false, (.lookup "lookupTimeStamp"), "0-59 = UTC second when the report was generated", "", 0⟩,
  ⟨"COG", 16, (.scale "RES_DEGREES"), false, (.text "deg"), "", "", 0⟩,
  ⟨"SOG", 16, (.scale "0.01"), false, (.text "m/s"), "", "", 0⟩,
  ⟨"Communication State", 19, .binary, false, .nil, "Information used by the TDMA slot allocation algorithm and synchronization information", "", 0⟩,
  ⟨"AIS Transceiver information", 5, .lookup, false, (.lookup "lookupAisTransceiver"), "", "", 0⟩,
  ⟨"Heading", 16, (.scale "RES_DEGREES"), false, (.text "deg"), "True heading", "", 0⟩,
  ⟨"Regional Application", 8, .one, false, .nil, "", "", 0⟩,
  ⟨"Regional Application", 2, .one, false, .nil, "", "", 0⟩,
  ⟨"Unit type", 1, .lookup, false, (.lookup "lookupAisUnitType"), "", "", 0⟩,
  ⟨"Integrated Display", 1, .lookup, false, (.lookup "lookupYesNo"), "Whether the unit can show messages 12 and 14", "", 0⟩,
  ⟨"DSC", 1, .lookup, false, (.lookup "lookupYesNo"), "", "", 0⟩,
  ⟨"Band", 1, .lookup, false, (.lookup "lookupAisBand"), "", "", 0⟩,
  ⟨"Can handle Msg 22", 1, .lookup, false, (.lookup "lookupYesNo"), "Whether device supports message 22", "", 0⟩,
  ⟨"AIS mode", 1, .lookup, false, (.lookup "lookupAisMode"), "", "", 0⟩,
  ⟨"AIS communication state", 1, .lookup, false, (.lookup "lookupAisCommState"), "", "", 0⟩]⟩

/-- pgn_array.go:1131, index 113. -/
def p113 : Pgn := ⟨"AIS Class B Extended Position Report", "AIS", 129040, true, 33, 0, [
  ⟨"Message ID", 6, .one, false, .nil, "", "", 0⟩,
  ⟨"Repeat Indicator", 2, .lookup, false, (.lookup "lookupRepeatIndicator"), "", "", 0⟩,
  ⟨"User ID", 32, .integer, false, (.text "MMSI"), "", "", 0⟩,
  ⟨"Longitude", 32, .longitude, true, (.text "deg"), "", "", 0⟩,
  ⟨"Latitude", 32, .latitude, true, (.text "deg"), "", "", 0⟩,
  ⟨"Position Accuracy", 1, .lookup, false, (.lookup "lookupPositionAccuracy"), "", "", 0⟩,
  ⟨"AIS RAIM flag", 1, .lookup, false, (.lookup "lookupAisRAIM"), "", "", 0⟩,
  ⟨"Time Stamp", 6, .lookup, false, (.lookup "lookupTimeStamp"), "0-59 = UTC second when the report was generated", "", 0⟩,
  ⟨"COG", 16, (.scale "RES_DEGREES"), false, (.text "deg"), "", "", 0⟩,
  ⟨"SOG", 16, (.scale "0.01"), false, (.text "m/s"), "", "", 0⟩,
  ⟨"Regional Application", 8, .one, false, .nil, "", "", 0⟩,
  ⟨"Regional Application", 4, .one, false, .nil, "", "", 0⟩,
  ⟨"Reserved", 4, .binary, false, .nil, "reserved", "", 0⟩,
  ⟨"Type of ship", 8, .lookup, false, (.lookup "lookupShipType"), "", "", 0⟩,
  ⟨"True Heading", 16, (.scale "RES_DEGREES"), false, (.text "deg"), "", "", 0⟩,
  ⟨"Reserved", 4, .binary, false, .nil, "", "", 0⟩,
  ⟨"GNSS type", 4, .lookup, false, (.lookup "lookupGnsAis"), "", "", 0⟩,
  ⟨"Length", 16, (.scale "0.1"), false, (.text "m"), "", "", 0⟩,
  ⟨"Beam", 16, (.scale "0.1"), false, (.text "m"), "", "", 0⟩,
  ⟨"Position reference from Starboard", 16, (.scale "0.1"), false, (.text "m"), "", "", 0⟩,
  ⟨"Position reference from Bow", 16, (.scale "0.1"), false, (.text "m"), "", "", 0⟩,
  ⟨"Name", 160, .ascii, false, .nil, "0=unavailable", "", 0⟩,
  ⟨"DTE", 1, .lookup, false, (.lookup "lookupAisDTE"), "", "", 0⟩,
  ⟨"AIS mode", 1, .one, false, (.lookup "lookupAisMode"), "", "", 0⟩,
  ⟨"Reserved", 4, .binary, false, .nil, "", "", 0⟩,
  ⟨"AIS Transceiver information", 5, .lookup, false, (.lookup "lookupAisTransceiver"), "", "", 0⟩]⟩

/-- pgn_array.go:1160, index 114. -/
def p114 : Pgn := ⟨"AIS Aids to Navigation (AtoN) Report", "AIS", 129041, false, 33, 0, [
  ⟨"Message ID", 6, .one, false, .nil, "", "", 0⟩,
  ⟨"Repeat Indicator", 2, .lookup, false, (.lookup "lookupRepeatIndicator"), "", "", 0⟩,
  ⟨"ID", 32, .integer, false, (.text "MMSI"), "", "", 0⟩,
  ⟨"Longitude", 32, .longitude, true, (.text "deg"), "", "", 0⟩,
  ⟨"Latitude", 32, .latitude, true, (.text "deg"), "", "", 0⟩,
  ⟨"Position Accuracy", 1, .lookup, false, (.lookup "lookupPositionAccuracy"), "", "", 0⟩,
  ⟨"RAIM Flag", 1, .lookup, false, (.lookup "lookupAisRAIM"), "", "", 0⟩,
  ⟨"Time Stamp", 6, .lookup, false, (.lookup "lookupTimeStamp"), "0-59 = UTC second when the report was generated", "", 0⟩,
  ⟨"AtoN Structure Length/Diameter", 16, (.scale "0.1"), false, (.text "m"), "", "", 0⟩,
  ⟨"AtoN Stucture Beam/Diameter", 16, (.scale "0.1"), false, (.text "m"), "", "", 0⟩,
  ⟨"Position Reference Point from Staboard Structure Edge/Radius", 16, (.scale "0.1"), false, .nil, "m", "", 0⟩,
  ⟨"Position Reference Point from True North facing Structure Edge/Radius", 16, (.scale "0.1"), false, .nil, "m", "", 0⟩,
  ⟨"Aid to Navigation (AtoN) Type", 5, .lookup, false, (.lookup "lookupAisAtoNType"), "", "", 0⟩,
  ⟨"Off Position Indicator", 1, .binary, false, .nil, "", "", 0⟩,
  ⟨"Virtual AtoN Flag", 1, .binary, false, .nil, "", "", 0⟩,
  ⟨"Assigned Mode Flag", 1, .binary, false, .nil, "", "", 0⟩,
  ⟨"AIS Spare", 1, .binary, false, .nil, "", "", 0⟩,
  ⟨"GNSS Type", 4, .lookup, false, (.lookup "lookupGnsAis"), "", "", 0⟩,
  ⟨"NMEA Reserved", 3, .binary, false, .nil, "", "", 0⟩,
  ⟨"AtoN Status", 8, .binary, false, .nil, "", "", 0⟩,
  ⟨"AIS Transceiver information", 5, .lookup, false, (.lookup "lookupAisTransceiver"), "", "", 0⟩,
  ⟨"NMEA Reserved", 3, .binary, false, .nil, "", "", 0⟩,
  ⟨"Aid to Navigation (AtoN) Name", 274, .string, false, .nil, "", "", 0⟩]⟩

/-- pgn_array.go:1186, index 115. -/
def p115 : Pgn := ⟨"Datum", "Navigation", 129044, true, 24, 0, [
  ⟨"Local Datum", 32, .ascii, false, .nil, "defined in IHO Publication S-60, Appendices B and C. First three chars are datum ID as per IHO tables.Fourth char is local datum subdivision code.", "", 0⟩,
  ⟨"Delta Latitude", 32, .latitude, true, (.text "deg"), "", "", 0⟩,
  ⟨"Delta Longitude", 32, .longitude, true, (.text "deg"), "", "", 0⟩,
  ⟨"Delta Altitude", 32, (.scale "1e-6"), true, (.text "m"), "", "", 0⟩,
  ⟨"Reference Datum", 32, .ascii, false, .nil, "defined in IHO Publication S-60, Appendices B and C. First three chars are datum ID as per IHO tables. Fourth char is local datum subdivision code.", "", 0⟩]⟩

/-- pgn_array.go:1198, index 116. -/
def p116 : Pgn := ⟨"User Datum", "Navigation", 129045, true, 37, 0, [
  ⟨"Delta X", 32, (.scale "0.01"), true, (.text "m"), "Delta shift in X axis from WGS 84", "", 0⟩,
  ⟨"Delta Y", 32, (.scale "0.01"), true, (.text "m"), "Delta shift in Y axis from WGS 84", "", 0⟩,
  ⟨"Delta Z", 32, (.scale "0.01"), true, (.text "m"), "Delta shift in Z axis from WGS 84", "", 0⟩,
  ⟨"Rotation in X", 32, .float, true, .nil, "Rotational shift in X axis from WGS 84. Rotations presented use the geodetic sign convention. When looking along the positive axis towards the origin, counter-clockwise rotations are positive.", "", 0⟩,
  ⟨"Rotation in Y", 32, .float, true, .nil, "Rotational shift in Y axis from WGS 84. Rotations presented use the geodetic sign convention. When looking along the positive axis towards the origin, counter-clockwise rotations are positive.", "", 0⟩,
  ⟨"Rotation in Z", 32, .float, true, .nil, "Rotational shift in Z axis from WGS 84. Rotations presented use the geodetic sign convention. When looking along the positive axis towards the origin, counter-clockwise rotations are positive.", "", 0⟩,
  ⟨"Scale", 32, .float, true, (.text "ppm"), "Scale factor expressed in parts-per-million", "", 0⟩,
  ⟨"Ellipsoid Semi-major Axis", 32, (.scale "0.01"), true, (.text "m"), "Semi-major axis (a) of the User Datum ellipsoid", "", 0⟩,
  ⟨"Ellipsoid Flattening Inverse", 32, .float, true, .nil, "Flattening (1/f) of the User Datum ellipsoid", "", 0⟩,
  ⟨"Datum Name", 32, .ascii, false, .nil, "4 character code from IHO Publication S-60, Appendices B and C.First three chars are datum ID as per IHO tables.Fourth char is local datum subdivision code.", "", 0⟩]⟩

/-- pgn_array.go:1213, index 117. -/
def p117 : Pgn := ⟨"Cross Track Error", "Navigation", 129283, false, 6, 0, [
  ⟨"SID", 8, .one, false, .nil, "", "", 0⟩,
  ⟨"XTE mode", 4, .lookup, false, (.lookup "lookupResidualMode"), "", "", 0⟩,
  ⟨"Reserved", 2, .binary, false, .nil, "reserved", "", 0⟩,
  ⟨"Navigation Terminated", 2, .lookup, false, (.lookup "lookupYesNo"), "", "", 0⟩,
  ⟨"XTE", 32, (.scale "0.01"), true, (.text "m"), "", "", 0⟩]⟩

/-- pgn_array.go:1221, index 118. -/
def p118 : Pgn := ⟨"Navigation Data", "Navigation", 129284, true, 34, 0, [
  ⟨"SID", 8, .one, false, .nil, "", "", 0⟩,
  ⟨"Distance to Waypoint", 32, (.scale "0.01"), false, (.text "m"), "", "", 0⟩,
  ⟨"Course/Bearing reference", 2, .lookup, false, (.lookup "lookupDirectionReference"), "", "", 0⟩,
  ⟨"Perpendicular Crossed", 2, .lookup, false, (.lookup "lookupYesNo"), "", "", 0⟩,
  ⟨"Arrival Circle Entered", 2, .lookup, false, (.lookup "lookupYesNo"), "", "", 0⟩,
  ⟨"Calculation Type", 2, .lookup, false, (.lookup "lookupNavCalculation"), "", "", 0⟩,
  ⟨"ETA Time", 32, .time, false, (.text "s"), "Seconds since midnight", "", 0⟩,
  ⟨"ETA Date", 16, .date, false, (.text "days"), "Days since January 1, 1970", "", 0⟩,
  ⟨"Bearing, Origin to Destination Waypoint", 16, (.scale "RES_DEGREES"), false, (.text "deg"), "", "", 0⟩,
  ⟨"Bearing, Position to Destination Waypoint", 16, (.scale "RES_DEGREES"), false, (.text "deg"), "", "", 0⟩,
  ⟨"Origin Waypoint Number", 32, .one, false, .nil, "", "", 0⟩,
  ⟨"Destination Waypoint Number", 32, .one, false, .nil, "", "", 0⟩,
  ⟨"Destination Latitude", 32, .latitude, true, (.text "deg"), "", "", 0⟩,
  ⟨"Destination Longitude", 32, .longitude, true, (.text "deg"), "", "", 0⟩,
  ⟨"Waypoint Closing Velocity", 16, (.scale "0.01"), true, (.text "m/s"), "", "", 0⟩]⟩

/-- pgn_array.go:1239, index 119. -/
def p119 : Pgn := ⟨"Navigation - Route/WP Information", "Navigation", 129285, true, 528, 4, [
  ⟨"Start RPS#", 16, .one, false, .nil, "", "", 0⟩,
  ⟨"nItems", 16, .one, false, .nil, "", "", 0⟩,
  ⟨"Database ID", 16, .one, false, .nil, "", "", 0⟩,
  ⟨"Route ID", 16, .one, false, .nil, "", "", 0⟩,
  ⟨"Navigation direction in route", 2, .one, false, .nil, "", "", 0⟩,
  ⟨"Supplementary Route/WP data available", 2, .one, false, .nil, "", "", 0⟩,
  ⟨"Reserved", 4, .binary, false, .nil, "Reserved", "", 0⟩,
  ⟨"Route Name", 2040, .string, false, .nil, "", "", 0⟩,
  ⟨"Reserved", 8, .binary, false, .nil, "Reserved", "", 0⟩,
  ⟨"WP ID", 16, .one, false, .nil, "", "", 0⟩,
  ⟨"WP Name", 2040, .string, false, .nil, "", "", 0⟩,
  ⟨"WP Latitude", 32, .latitude, true, (.text "deg"), "", "", 0⟩,
  ⟨"WP Longitude", 32, .longitude, true, (.text "deg"), "", "", 0⟩]⟩

/-- pgn_array.go:1255, index 120. -/
def p120 : Pgn := ⟨"Set & Drift, Rapid Update", "Navigation", 129291, true, 8, 0, [
  ⟨"SID", 8, .one, false, .nil, "", "", 0⟩,
  ⟨"Set Reference", 2, .lookup, false, (.lookup "lookupDirectionReference"), "", "", 0⟩,
  ⟨"Reserved", 6, .binary, false, .nil, "Reserved", "", 0⟩,
  ⟨"Set", 16, (.scale "RES_DEGREES"), false, (.text "deg"), "", "", 0⟩,
  ⟨"Drift", 16, (.scale "0.01"), false, (.text "m/s"), "", "", 0⟩]⟩

/-- pgn_array.go:1263, index 121. -/
def p121 : Pgn := ⟨"Navigation - Route / Time to+from Mark", "Navigation", 129301, true, 10, 0, [
  ⟨"SID", 8, .one, false, .nil, "", "", 0⟩,
  ⟨"Time to mark", 32, (.scale "0.001"), true, (.text "s"), "negative = elapsed since event, positive = time to go", "", 0⟩,
  ⟨"Mark Type", 4, .lookup, false, (.lookup "lookupNavMarkType"), "", "", 0⟩,
  ⟨"Reserved", 4, .binary, false, .nil, "Reserved", "", 0⟩,
  ⟨"Mark ID", 32, .one, false, .nil, "", "", 0⟩]⟩

/-- pgn_array.go:1271, index 122. -/
def p122 : Pgn := ⟨"Bearing and Distance between two Marks", "Navigation", 129302, false, 8, 0, [
  ⟨"SID", 8, .one, false, .nil, "", "", 0⟩,
  ⟨"Bearing Reference", 4, .lookup, false, .nil, "", "", 0⟩,
  ⟨"Calculation Type", 2, .lookup, false, .nil, "", "", 0⟩,
  ⟨"Reserved", 2, .binary, false, .nil, "Reserved", "", 0⟩,
  ⟨"Bearing, Origin to Destination", 16, (.scale "RES_DEGREES"), false, (.text "deg"), "", "", 0⟩,
  ⟨"Distance", 32, (.scale "0.01"), false, (.text "m"), "", "", 0⟩,
  ⟨"Origin Mark Type", 4, .lookup, false, .nil, "", "", 0⟩,
  ⟨"Destination Mark Type", 4, .lookup, false, .nil, "", "", 0⟩,
  ⟨"Origin Mark ID", 32, .one, false, .nil, "", "", 0⟩,
  ⟨"Destination Mark ID", 32, .one, false, .nil, "", "", 0⟩]⟩

/-- pgn_array.go:1286, index 123. -/
def p123 : Pgn := ⟨"GNSS Control Status", "Navigation", 129538, false, 8, 0, [
  ⟨"SV Elevation Mask", 16, .one, false, .nil, "Will not use SV below this elevation", "", 0⟩,
  ⟨"PDOP Mask", 16, (.scale "0.01"), false, .nil, "Will not report position above this PDOP", "", 0⟩,
  ⟨"PDOP Switch", 16, (.scale "0.01"), false, .nil, "Will report 2D position above this PDOP", "", 0⟩,
  ⟨"SNR Mask", 16, (.scale "0.01"), false, .nil, "Will not use SV below this SNR", "", 0⟩,
  ⟨"GNSS Mode (desired)", 3, .lookup, false, (.lookup "lookupGnssMode"), "", "", 0⟩,
  ⟨"DGNSS Mode (desired)", 3, .lookup, false, (.lookup "lookupDGnssMode"), "", "", 0⟩,
  ⟨"Position/Velocity Filter", 2, .one, false, .nil, "", "", 0⟩,
  ⟨"Max Correction Age", 16, .one, false, .nil, "", "", 0⟩,
  ⟨"Antenna Altitude for 2D Mode", 16, (.scale "0.01"), false, (.text "m"), "", "", 0⟩,
  ⟨"Use Antenna Altitude for 2D Mode", 2, .lookup, false, (.lookup "lookupGnssAntenna"), "", "", 0⟩]⟩

/-- pgn_array.go:1300, index 124. -/
def p124 : Pgn := ⟨"GNSS DOPs", "Navigation", 129539, true, 8, 0, [
  ⟨"SID", 8, .one, false, .nil, "", "", 0⟩,
  ⟨"Desired Mode", 3, .lookup, false, (.lookup "lookupGnssMode"), "", "", 0⟩,
  ⟨"Actual Mode", 3, .lookup, false, (.lookup "lookupGnssMode"), "", "", 0⟩,
  ⟨"Reserved", 2, .binary, false, .nil, "Reserved", "", 0⟩,
  ⟨"HDOP", 16, (.scale "0.01"), true, .nil, "Horizontal dilution of precision", "", 0⟩,
  ⟨"VDOP", 16, (.scale "0.01"), true, .nil, "Vertical dilution of precision", "", 0⟩,
  ⟨"TDOP", 16, (.scale "0.01"), false, .nil, "Time dilution of precision", "", 0⟩]⟩

/-- pgn_array.go:1310, index 125. -/
def p125 : Pgn := ⟨"GNSS Sats in View", "Navigation", 129540, true, 255, 7, [
  ⟨"SID", 8, .one, false, .nil, "", "", 0⟩,
  ⟨"Mode", 2, .lookup, false, (.lookup "lookupGnssSatMode"), "", "", 0⟩,
  ⟨"Reserved", 6, .binary, false, .nil, "Reserved", "", 0⟩,
  ⟨"Sats in View", 8, .one, false, .nil, "", "", 0⟩,
  ⟨"PRN", 8, .one, false, .nil, "", "", 0⟩,
  ⟨"Elevation", 16, (.scale "RES_DEGREES"), true, (.text "deg"), "", "", 0⟩,
  ⟨"Azimuth", 16, (.scale "RES_DEGREES"), true, (.text "deg"), "", "", 0⟩,
  ⟨"SNR", 16, (.scale "0.01"), false, (.text "dB"), "", "", 0⟩,
  ⟨"Range residuals", 32, .one, true, .nil, "", "", 0⟩,
  ⟨"Status", 4, .lookup, false, (.lookup "lookupGnssSatStatus"), "", "", 0⟩,
  ⟨"Reserved", 4, .binary, false, .nil, "Reserved", "", 0⟩]⟩

/-- pgn_array.go:1324, index 126. -/
def p126 : Pgn := ⟨"GPS Almanac Data", "Navigation", 129541, false, 8, 0, [
  ⟨"PRN", 8, .one, false, .nil, "", "", 0⟩,
  ⟨"GPS Week number", 8, .one, false, .nil, "", "", 0⟩,
  ⟨"SV Health Bits", 8, .one, false, .nil, "", "", 0⟩,
  ⟨"Eccentricity", 8, .one, false, .nil, "", "", 0⟩,
  ⟨"Almanac Reference Time", 8, .one, false, .nil, "", "", 0⟩,
  ⟨"Inclination Angle", 8, .one, false, .nil, "", "", 0⟩,
  ⟨"Right of Right Ascension", 8, .one, false, .nil, "", "", 0⟩,
  ⟨"Root of Semi-major Axis", 8, .one, false, .nil, "", "", 0⟩,
  ⟨"Argument of Perigee", 8, .one, false, .nil, "", "", 0⟩,
  ⟨"Longitude of Ascension Node", 8, .one, false, .nil, "", "", 0⟩,
  ⟨"Mean Anomaly", 8, .one, false, .nil, "", "", 0⟩,
  ⟨"Clock Parameter 1", 8, .one, false, .nil, "", "", 0⟩,
  ⟨"Clock Parameter 2", 8, .one, false, .nil, "", "", 0⟩]⟩

/-- pgn_array.go:1340, index 127. -/
def p127 : Pgn := ⟨"GNSS Pseudorange Noise Statistics", "Navigation", 129542, false, 8, 0, [
  ⟨"SID", 8, .one, false, .nil, "", "", 0⟩,
  ⟨"RMS of Position Uncertainty", 16, .one, false, .nil, "", "", 0⟩,
  ⟨"STD of Major axis", 8, .one, false, .nil, "", "", 0⟩,
  ⟨"STD of Minor axis", 8, .one, false, .nil, "", "", 0⟩,
  ⟨"Orientation of Major axis", 8, .one, false, .nil, "", "", 0⟩,
  ⟨"STD of Lat Error", 8, .one, false, .nil, "", "", 0⟩,
  ⟨"STD of Lon Error", 8, .one, false, .nil, "", "", 0⟩,
  ⟨"STD of Alt Error", 8, .one, false, .nil, "", "", 0⟩]⟩

/-- pgn_array.go:1351, index 128. -/
def p128 : Pgn := ⟨"GNSS RAIM Output", "Navigation", 129545, false, 8, 0, [
  ⟨"SID", 8, .one, false, .nil, "", "", 0⟩,
  ⟨"Integrity flag", 4, .one, false, .nil, "", "", 0⟩,
  ⟨"Reserved", 4, .binary, false, .nil, "Reserved", "", 0⟩,
  ⟨"Latitude expected error", 8, .one, false, .nil, "", "", 0⟩,
  ⟨"Longitude expected error", 8, .one, false, .nil, "", "", 0⟩,
  ⟨"Altitude expected error", 8, .one, false, .nil, "", "", 0⟩,
  ⟨"SV ID of most likely failed sat", 8, .one, false, .nil, "", "", 0⟩,
  ⟨"Probability of missed detection", 8, .one, false, .nil, "", "", 0⟩,
  ⟨"Estimate of pseudorange bias", 8, .one, false, .nil, "", "", 0⟩,
  ⟨"Std Deviation of bias", 8, .one, false, .nil, "", "", 0⟩]⟩

/-- pgn_array.go:1364, index 129. -/
def p129 : Pgn := ⟨"GNSS RAIM Settings", "Navigation", 129546, false, 8, 0, [
  ⟨"Radial Position Error Maximum Threshold", 8, .one, false, .nil, "", "", 0⟩,
  ⟨"Probability of False Alarm", 8, .one, false, .nil, "", "", 0⟩,
  ⟨"Probability of Missed Detection", 8, .one, false, .nil, "", "", 0⟩,
  ⟨"Pseudorange Residual Filtering Time Constant", 8, .one, false, .nil, "", "", 0⟩]⟩

/-- pgn_array.go:1371, index 130. -/
def p130 : Pgn := ⟨"GNSS Pseudorange Error Statistics", "Navigation", 129547, false, 8, 0, [
  ⟨"SID", 8, .one, false, .nil, "", "", 0⟩,
  ⟨"RMS Std Dev of Range Inputs", 16, .one, false, .nil, "", "", 0⟩,
  ⟨"Std Dev of Major error ellipse", 8, .one, false, .nil, "", "", 0⟩,
  ⟨"Std Dev of Minor error ellipse", 8, .one, false, .nil, "", "", 0⟩,
  ⟨"Orientation of error ellipse", 8, .one, false, .nil, "", "", 0⟩,
  ⟨"Std Dev Lat Error", 8, .one, false, .nil, "", "", 0⟩,
  ⟨"Std Dev Lon Error", 8, .one, false, .nil, "", "", 0⟩,
  ⟨"Std Dev Alt Error", 8, .one, false, .nil, "", "", 0⟩]⟩

/-- pgn_array.go:1382, index 131. -/
def p131 : Pgn := ⟨"DGNSS Corrections", "Navigation", 129549, false, 8, 0, [
  ⟨"SID", 8, .one, false, .nil, "", "", 0⟩,
  ⟨"Reference Station ID", 16, .one, false, .nil, "", "", 0⟩,
  ⟨"Reference Station Type", 16, .one, false, .nil, "", "", 0⟩,
  ⟨"Time of corrections", 8, .one, false, .nil, "", "", 0⟩,
  ⟨"Station Health", 8, .one, false, .nil, "", "", 0⟩,
  ⟨"Reserved Bits", 8, .one, false, .nil, "", "", 0⟩,
  ⟨"Satellite ID", 8, .one, false, .nil, "", "", 0⟩,
  ⟨"PRC", 8, .one, false, .nil, "", "", 0⟩,
  ⟨"RRC", 8, .one, false, .nil, "", "", 0⟩,
  ⟨"UDRE", 8, .one, false, .nil, "", "", 0⟩,
  ⟨"IOD", 8, .one, false, .nil, "", "", 0⟩]⟩

/-- pgn_array.go:1396, index 132. -/
def p132 : Pgn := ⟨"GNSS Differential Correction Receiver Interface", "Navigation", 129550, false, 8, 0, [
  ⟨"Channel", 8, .one, false, .nil, "", "", 0⟩,
  ⟨"Frequency", 8, .one, false, .nil, "", "", 0⟩,
  ⟨"Serial Interface Bit Rate", 8, .one, false, .nil, "", "", 0⟩,
  ⟨"Serial Interface Detection Mode", 8, .one, false, .nil, "", "", 0⟩,
  ⟨"Differential Source", 8, .one, false, .nil, "", "", 0⟩,
  ⟨"Differential Operation Mode", 8, .one, false, .nil, "", "", 0⟩]⟩

/-- pgn_array.go:1405, index 133. -/
def p133 : Pgn := ⟨"GNSS Differential Correction Receiver Signal", "Navigation", 129551, false, 8, 0, [
  ⟨"SID", 8, .one, false, .nil, "", "", 0⟩,
  ⟨"Channel", 8, .one, false, .nil, "", "", 0⟩,
  ⟨"Signal Strength", 8, .one, false, .nil, "", "", 0⟩,
  ⟨"Signal SNR", 8, .one, false, .nil, "", "", 0⟩,
  ⟨"Frequency", 8, .one, false, .nil, "", "", 0⟩,
  ⟨"Station Type", 8, .one, false, .nil, "", "", 0⟩,
  ⟨"Station ID", 8, .one, false, .nil, "", "", 0⟩,
  ⟨"Differential Signal Bit Rate", 8, .one, false, .nil, "", "", 0⟩,
  ⟨"Differential Signal Detection Mode", 8, .one, false, .nil, "", "", 0⟩,
  ⟨"Used as Correction Source", 8, .one, false, .nil, "", "", 0⟩,
  ⟨"Reserved", 8, .one, false, .nil, "Reserved", "", 0⟩,
  ⟨"Differential Source", 8, .one, false, .nil, "", "", 0⟩,
  ⟨"Time since Last Sat Differential Sync", 8, .one, false, .nil, "", "", 0⟩,
  ⟨"Satellite Service ID No.", 8, .one, false, .nil, "", "", 0⟩]⟩

/-- pgn_array.go:1422, index 134. -/
def p134 : Pgn := ⟨"GLONASS Almanac Data", "Navigation", 129556, false, 8, 0, [
  ⟨"PRN", 8, .one, false, .nil, "", "", 0⟩,
  ⟨"NA", 8, .one, false, .nil, "", "", 0⟩,
  ⟨"CnA", 8, .one, false, .nil, "", "", 0⟩,
  ⟨"HnA", 8, .one, false, .nil, "", "", 0⟩,
  ⟨"(epsilon)nA", 8, .one, false, .nil, "", "", 0⟩,
  ⟨"(deltaTnA)DOT", 8, .one, false, .nil, "", "", 0⟩,
  ⟨"(omega)nA", 8, .one, false, .nil, "", "", 0⟩,
  ⟨"(delta)TnA", 8, .one, false, .nil, "", "", 0⟩,
  ⟨"tnA", 8, .one, false, .nil, "", "", 0⟩,
  ⟨"(lambda)nA", 8, .one, false, .nil, "", "", 0⟩,
  ⟨"(delta)inA", 8, .one, false, .nil, "", "", 0⟩,
  ⟨"tcA", 8, .one, false, .nil, "", "", 0⟩,
  ⟨"tnA", 8, .one, false, .nil, "", "", 0⟩]⟩

/-- pgn_array.go:1438, index 135. -/
def p135 : Pgn := ⟨"AIS DGNSS Broadcast Binary Message", "AIS", 129792, false, 8, 0, [
  ⟨"Message ID", 8, .one, false, .nil, "", "", 0⟩,
  ⟨"Repeat Indicator", 8, .one, false, .nil, "", "", 0⟩,
  ⟨"Source ID", 8, .one, false, .nil, "", "", 0⟩,
  ⟨"NMEA 2000 Reserved", 8, .one, false, .nil, "", "", 0⟩,
  ⟨"AIS Tranceiver Information", 8, .one, false, .nil, "", "", 0⟩,
  ⟨"Spare", 8, .one, false, .nil, "", "", 0⟩,
  ⟨"Longitude", 8, .one, false, .nil, "", "", 0⟩,
  ⟨"Latitude", 8, .one, false, .nil, "", "", 0⟩,
  ⟨"NMEA 2000 Reserved", 8, .one, false, .nil, "", "", 0⟩,
  ⟨"Spare", 8, .one, false, .nil, "", "", 0⟩,
  ⟨"Number of Bits in Binary Data Field", 8, .one, false, .nil, "", "", 0⟩,
  ⟨"Binary Data", 64, .binary, false, .nil, "", "", 0⟩]⟩

/-- pgn_array.go:1453, index 136. -/
def p136 : Pgn := ⟨"AIS UTC and Date Report", "AIS", 129793, false, 8, 0, [
  ⟨"Message ID", 6, .one, false, .nil, "", "", 0⟩,
  ⟨"Repeat Indicator", 2, .lookup, false, (.lookup "lookupRepeatIndicator"), "", "", 0⟩,
  ⟨"User ID", 32, .integer, false, (.text "MMSI"), "", "", 0⟩,
  ⟨"Longitude", 32, .longitude, true, (.text "deg"), "", "", 0⟩,
  ⟨"Latitude", 32, .latitude, true, (.text "deg"), "", "", 0⟩,
  ⟨"Position Accuracy", 1, .lookup, false, (.lookup "lookupAisAccuracy"), "", "", 0⟩,
  ⟨"RAIM", 1, .lookup, false, (.lookup "lookupAisRAIM"), "", "", 0⟩,
  ⟨"Reserved", 6, .binary, false, .nil, "NMEA reserved to align next data on byte boundary", "", 0⟩,
  ⟨"Position Time", 32, .time, false, (.text "s"), "Seconds since midnight", "", 0⟩,
  ⟨"Communication State", 19, .binary, false, .nil, "Information used by the TDMA slot allocation algorithm and synchronization information", "", 0⟩,
  ⟨"AIS Transceiver information", 5, .lookup, false, (.lookup "lookupAisTransceiver"), "", "", 0⟩,
  ⟨"Position Date", 16, .date, false, (.text "days"), "Days since January 1, 1970", "", 0⟩,
  ⟨"Reserved", 4, .binary, false, .nil, "NMEA reserved to align next data on byte boundary", "", 0⟩,
  ⟨"GNSS type", 4, .lookup, false, (.lookup "lookupGnsAis"), "", "", 0⟩,
  ⟨"Spare", 8, .binary, false, .nil, "", "", 0⟩]⟩

/-- pgn_array.go:1472, index 137. -/
def p137 : Pgn := ⟨"AIS Class A Static and Voyage Related Data", "AIS", 129794, true, 24, 0, [
  ⟨"Message ID", 6, .one, false, .nil, "", "", 0⟩,
  ⟨"Repeat indicator", 2, .lookup, false, (.lookup "lookupRepeatIndicator"), "", "", 0⟩,
  ⟨"User ID", 32, .integer, false, (.text "MMSI"), "", "", 0⟩,
  ⟨"IMO number", 32, .integer, false, .nil, "0=unavailable", "", 0⟩,
  ⟨"Callsign", 56, .ascii, false, .nil, "0=unavailable", "", 0⟩,
  ⟨"Name", 160, .ascii, false, .nil, "0=unavailable", "", 0⟩,
  ⟨"Type of ship", 8, .lookup, false, (.lookup "lookupShipType"), "", "", 0⟩,
  ⟨"Length", 16, (.scale "0.1"), false, (.text "m"), "", "", 0⟩,
  ⟨"Beam", 16, (.scale "0.1"), false, (.text "m"), "", "", 0⟩,
  ⟨"Position reference from Starboard", 16, (.scale "0.1"), false, (.text "m"), "", "", 0⟩,
  ⟨"Position reference from Bow", 16, (.scale "0.1"), false, (.text "m"), "", "", 0⟩,
  ⟨"ETA Date", 16, .date, false, (.text "days"), "Days since January 1, 1970", "", 0⟩,
  ⟨"ETA Time", 32, .time, false, (.text "s"), "Seconds since midnight", "", 0⟩,
  ⟨"Draft", 16, (.scale "0.01"), false, (.text "m"), "", "", 0⟩,
  ⟨"Destination", 160, .ascii, false, .nil, "0=unavailable", "", 0⟩,
  ⟨"AIS version indicator", 2, .lookup, false, (.lookup "lookupAisVersion"), "", "", 0⟩,
  ⟨"GNSS type", 4, .lookup, false, (.lookup "lookupGnsAis"), "", "", 0⟩,
  ⟨"DTE", 1, .lookup, false, (.lookup "lookupAisDTE"), "", "", 0⟩,
  ⟨"Reserved", 1, .binary, false, .nil, "reserved", "", 0⟩,
  ⟨"AIS Transceiver information", 5, .lookup, false, (.lookup "lookupAisTransceiver"), "", "", 0⟩]⟩

/-- pgn_array.go:1495, index 138. -/
def p138 : Pgn := ⟨"AIS Addressed Binary Message", "AIS", 129795, true, 13, 0, [
  ⟨"Message ID", 6, .one, false, .nil, "", "", 0⟩,
  ⟨"Repeat Indicator", 2, .lookup, false, (.lookup "lookupRepeatIndicator"), "", "", 0⟩,
  ⟨"Source ID", 32, .integer, false, (.text "MMSI"), "", "", 0⟩,
  ⟨"Reserved", 1, .binary, false, .nil, "reserved", "", 0⟩,
  ⟨"AIS Transceiver information", 5, .lookup, false, (.lookup "lookupAisTransceiver"), "", "", 0⟩,
  ⟨"Sequence Number", 2, .one, false, .nil, "", "", 0⟩,
  ⟨"Destination ID", 32, .integer, false, (.text "MMSI"), "", "", 0⟩,
  ⟨"Reserved", 6, .binary, false, .nil, "reserved", "", 0⟩,
  ⟨"Retransmit flag", 1, .one, false, .nil, "", "", 0⟩,
  ⟨"Reserved", 1, .binary, false, .nil, "reserved", "", 0⟩,
  ⟨"Number of Bits in Binary Data Field", 16, .integer, false, .nil, "", "", 0⟩,
  ⟨"Binary Data", 64, .binary, false, .nil, "", "", 0⟩]⟩

/-- pgn_array.go:1510, index 139. -/
def p139 : Pgn := ⟨"AIS Acknowledge", "AIS", 129796, true, 12, 0, [
  ⟨"Message ID", 6, .one, false, .nil, "", "", 0⟩,
  ⟨"Repeat Indicator", 2, .lookup, false, (.lookup "lookupRepeatIndicator"), "", "", 0⟩,
  ⟨"Source ID", 32, .one, false, (.text "MMSI"), "", "", 0⟩,
  ⟨"Reserved", 1, .binary, false, .nil, "reserved", "", 0⟩,
  ⟨"AIS Transceiver information", 5, .lookup, false, (.lookup "lookupAisTransceiver"), "", "", 0⟩,
  ⟨"Reserved", 2, .binary, false, .nil, "reserved", "", 0⟩,
  ⟨"Destination ID #1", 32, .one, false, .nil, "", "", 0⟩,
  ⟨"Sequence Number for ID 1", 2, .binary, false, .nil, "reserved", "", 0⟩,
  ⟨"Reserved", 6, .binary, false, .nil, "reserved", "", 0⟩,
  ⟨"Sequence Number for ID n", 2, .binary, false, .nil, "reserved", "", 0⟩]⟩

/-- pgn_array.go:1523, index 140. -/
def p140 : Pgn := ⟨"AIS Binary Broadcast Message", "AIS", 129797, true, 8, 0, [
  ⟨"Message ID", 6, .one, false, .nil, "", "", 0⟩,
  ⟨"Repeat Indicator", 2, .lookup, false, (.lookup "lookupRepeatIndicator"), "", "", 0⟩,
  ⟨"Source ID", 32, .one, false, .nil, "", "", 0⟩,
  ⟨"Reserved", 1, .binary, false, .nil, "reserved", "", 0⟩,
  ⟨"AIS Transceiver information", 5, .lookup, false, (.lookup "lookupAisTransceiver"), "", "", 0⟩,
  ⟨"Reserved", 2, .binary, false, .nil, "reserved", "", 0⟩,
  ⟨"Number of Bits in Binary Data Field", 16, .one, false, .nil, "", "", 0⟩,
  ⟨"Binary Data", 2040, .binary, false, .nil, "", "", 0⟩]⟩

/-- pgn_array.go:1534, index 141. -/
def p141 : Pgn := ⟨"AIS SAR Aircraft Position Report", "AIS", 129798, false, 8, 0, [
  ⟨"Message ID", 6, .one, false, .nil, "", "", 0⟩,
  ⟨"Repeat indicator", 2, .lookup, false, (.lookup "lookupRepeatIndicator"), "", "", 0⟩,
  ⟨"User ID", 32, .integer, false, (.text "MMSI"), "", "", 0⟩,
  ⟨"Longitude", 32, .longitude, true, (.text "deg"), "", "", 0⟩,
  ⟨"Latitude", 32, .latitude, true, (.text "deg"), "", "", 0⟩,
  ⟨"Position Accuracy", 1, .lookup, false, (.lookup "lookupPositionAccuracy"), "", "", 0⟩,
  ⟨"RAIM", 1, .lookup, false, (.lookup "lookupAisRAIM"), "", "", 0⟩,
  ⟨"Time Stamp", 6, .lookup, false, (.lookup "lookupTimeStamp"), "0-59 = UTC second when the report was generated", "", 0⟩,
  ⟨"COG", 16, (.scale "RES_DEGREES"), false, (.text "deg"), "", "", 0⟩,
  ⟨"SOG", 16, (.scale "0.1"), false, (.text "m/s"), "", "", 0⟩,
  ⟨"Communication State", 19, .binary, false, .nil, "Information used by the TDMA slot allocation algorithm and synchronization information", "", 0⟩,
  ⟨"AIS Transceiver information", 5, .lookup, false, (.lookup "lookupAisTransceiver"), "", "", 0⟩,
  ⟨"Altitude", 64, (.scale "1e-6"), true, (.text "m"), "", "", 0⟩,
  ⟨"Reserved for Regional Applications", 8, .one, false, .nil, "", "", 0⟩,
  ⟨"DTE", 1, .lookup, false, (.lookup "lookupAisDTE"), "", "", 0⟩,
  ⟨"Reserved", 7, .binary, false, .nil, "reserved", "", 0⟩]⟩

/-- pgn_array.go:1553, index 142. -/
def p142 : Pgn := ⟨"Radio Frequency/Mode/Power", "AIS", 129799, false, 9, 0, [
  ⟨"Rx Frequency", 32, (.scale "10"), false, (.text "Hz"), "", "", 0⟩,
  ⟨"Tx Frequency", 32, (.scale "10"), false, (.text "Hz"), "", "", 0⟩,
  ⟨"Radio Channel", 8, .one, false, .nil, "", "", 0⟩,
  ⟨"Tx Power", 8, .one, false, .nil, "", "", 0⟩,
  ⟨"Mode", 8, .one, false, .nil, "", "", 0⟩,
  ⟨"Channel Bandwidth", 8, .one, false, .nil, "", "", 0⟩]⟩

/-- pgn_array.go:1562, index 143. -/
def p143 : Pgn := ⟨"AIS UTC/Date Inquiry", "AIS", 129800, false, 8, 0, [
  ⟨"Message ID", 6, .one, false, .nil, "", "", 0⟩,
  ⟨"Repeat Indicator", 2, .lookup, false, (.lookup "lookupRepeatIndicator"), "", "", 0⟩,
  ⟨"Source ID", 30, .one, false, .nil, "", "", 0⟩,
  ⟨"Reserved", 2, .binary, false, .nil, "reserved", "", 0⟩,
  ⟨"AIS Transceiver information", 5, .lookup, false, (.lookup "lookupAisTransceiver"), "", "", 0⟩,
  ⟨"Reserved", 3, .binary, false, .nil, "reserved", "", 0⟩,
  ⟨"Destination ID", 30, .one, false, .nil, "", "", 0⟩,
  ⟨"Reserved", 2, .binary, false, .nil, "reserved", "", 0⟩]⟩

/-- pgn_array.go:1573, index 144. -/
def p144 : Pgn := ⟨"AIS Addressed Safety Related Message", "AIS", 129801, true, 12, 0, [
  ⟨"Message ID", 6, .one, false, .nil, "", "", 0⟩,
  ⟨"Repeat Indicator", 2, .lookup, false, (.lookup "lookupRepeatIndicator"), "", "", 0⟩,
  ⟨"Source ID", 32, .one, false, (.text "MMSI"), "", "", 0⟩,
  ⟨"Reserved", 1, .binary, false, .nil, "reserved", "", 0⟩,
  ⟨"AIS Transceiver information", 5, .lookup, false, (.lookup "lookupAisTransceiver"), "", "", 0⟩,
  ⟨"Sequence Number", 2, .one, false, .nil, "", "", 0⟩,
  ⟨"Destination ID", 32, .one, false, (.text "MMSI"), "", "", 0⟩,
  ⟨"Reserved", 6, .binary, false, .nil, "reserved", "", 0⟩,
  ⟨"Retransmit flag", 1, .one, false, .nil, "", "", 0⟩,
  ⟨"Reserved", 1, .binary, false, .nil, "reserved", "", 0⟩,
  ⟨"Safety Related Text", 2040, .ascii, false, .nil, "", "", 0⟩]⟩

/-- pgn_array.go:1587, index 145. -/
def p145 : Pgn := ⟨"AIS Safety Related Broadcast Message", "AIS", 129802, false, 8, 0, [
  ⟨"Message ID", 6, .one, false, .nil, "", "", 0⟩,
  ⟨"Repeat Indicator", 2, .lookup, false, (.lookup "lookupRepeatIndicator"), "", "", 0⟩,
  ⟨"Source ID", 30, .integer, false, .nil, "", "", 0⟩,
  ⟨"Reserved", 2, .binary, false, .nil, "reserved", "", 0⟩,
  ⟨"AIS Transceiver information", 5, .lookup, false, (.lookup "lookupAisTransceiver"), "", "", 0⟩,
  ⟨"Reserved", 3, .binary, false, .nil, "reserved", "", 0⟩,
  ⟨"Safety Related Text", 288, .ascii, false, .nil, "", "", 0⟩]⟩

/-- pgn_array.go:1597, index 146. -/
def p146 : Pgn := ⟨"AIS Interrogation", "AIS", 129803, false, 8, 8, [
  ⟨"Message ID", 6, .one, false, .nil, "", "", 0⟩,
  ⟨"Repeat Indicator", 2, .lookup, false, (.lookup "lookupRepeatIndicator"), "", "", 0⟩,
  ⟨"Source ID", 30, .integer, false, .nil, "", "", 0⟩,
  ⟨"Reserved", 2, .binary, false, .nil, "reserved", "", 0⟩,
  ⟨"AIS Transceiver information", 5, .lookup, false, (.lookup "lookupAisTransceiver"), "", "", 0⟩,
  ⟨"Reserved", 3, .binary, false, .nil, "reserved", "", 0⟩,
  ⟨"Destination ID", 30, .integer, false, .nil, "", "", 0⟩,
  ⟨"Reserved", 2, .binary, false, .nil, "reserved", "", 0⟩,
  ⟨"Message ID A", 8, .integer, false, .nil, "", "", 0⟩,
  ⟨"Slot Offset A", 14, .integer, false, .nil, "", "", 0⟩,
  ⟨"Reserved", 2, .binary, false, .nil, "reserved", "", 0⟩,
  ⟨"Message ID B", 8, .integer, false, .nil, "", "", 0⟩,
  ⟨"Slot Offset B", 14, .integer, false, .nil, "", "", 0⟩,
  ⟨"Reserved", 2, .binary, false, .nil, "reserved", "", 0⟩]⟩

/-- pgn_array.go:1614, index 147. -/
def p147 : Pgn := ⟨"AIS Assignment Mode Command", "AIS", 129804, true, 23, 3, [
  ⟨"Message ID", 6, .one, false, .nil, "", "", 0⟩,
  ⟨"Repeat Indicator", 2, .lookup, false, (.lookup "lookupRepeatIndicator"), "", "", 0⟩,
  ⟨"Source ID", 32, .integer, false, (.text "MMSI"), "", "", 0⟩,
  ⟨"Reserved", 1, .binary, false, .nil, "reserved", "", 0⟩,
  ⟨"AIS Transceiver information", 5, .lookup, false, (.lookup "lookupAisTransceiver"), "", "", 0⟩,
  ⟨"Reserved", 2, .binary, false, .nil, "reserved", "", 0⟩,
  ⟨"Destination ID", 32, .integer, false, (.text "MMSI"), "", "", 0⟩,
  ⟨"Offset", 16, .integer, false, .nil, "", "", 0⟩,
  ⟨"Increment", 16, .integer, false, .nil, "", "", 0⟩]⟩

/-- pgn_array.go:1626, index 148. -/
def p148 : Pgn := ⟨"AIS Data Link Management Message", "AIS", 129805, false, 8, 4, [
  ⟨"Message ID", 6, .one, false, .nil, "", "", 0⟩,
  ⟨"Repeat Indicator", 2, .lookup, false, (.lookup "lookupRepeatIndicator"), "", "", 0⟩,
  ⟨"Source ID", 30, .integer, false, .nil, "", "", 0⟩,
  ⟨"Reserved", 2, .binary, false, .nil, "reserved", "", 0⟩,
  ⟨"AIS Transceiver information", 5, .lookup, false, (.lookup "lookupAisTransceiver"), "", "", 0⟩,
  ⟨"Reserved", 3, .binary, false, .nil, "reserved", "", 0⟩,
  ⟨"Offset", 10, .integer, false, .nil, "", "", 0⟩,
  ⟨"Number of Slots", 8, .integer, false, .nil, "", "", 0⟩,
  ⟨"Timeout", 8, .integer, false, .nil, "", "", 0⟩,
  ⟨"Increment", 8, .integer, false, .nil, "", "", 0⟩]⟩

/-- pgn_array.go:1639, index 149. -/
def p149 : Pgn := ⟨"AIS Channel Management", "AIS", 129806, false, 8, 0, [
  ⟨"Message ID", 6, .one, false, .nil, "", "", 0⟩,
  ⟨"Repeat Indicator", 2, .lookup, false, (.lookup "lookupRepeatIndicator"), "", "", 0⟩,
  ⟨"Source ID", 30, .integer, false, .nil, "", "", 0⟩,
  ⟨"Reserved", 2, .binary, false, .nil, "reserved", "", 0⟩,
  ⟨"AIS Transceiver information", 5, .lookup, false, (.lookup "lookupAisTransceiver"), "", "", 0⟩,
  ⟨"Reserved", 3, .binary, false, .nil, "reserved", "", 0⟩,
  ⟨"Channel A", 7, .one, false, .nil, "", "", 0⟩,
  ⟨"Channel B", 7, .one, false, .nil, "", "", 0⟩,
  ⟨"Reserved", 2, .binary, false, .nil, "reserved", "", 0⟩,
  ⟨"Power", 8, .one, false, .nil, "reserved", "", 0⟩,
  ⟨"Tx/Rx Mode", 8, .integer, false, .nil, "", "", 0⟩,
  ⟨"North East Longitude Corner 1", 32, .longitude, true, (.text "deg"), "", "", 0⟩,
  ⟨"North East Latitude Corner 1", 32, .latitude, true, (.text "deg"), "", "", 0⟩,
  ⟨"South West Longitude Corner 1", 32, .longitude, true, (.text "deg"), "", "", 0⟩,
  ⟨"South West Latitude Corner 2", 32, .latitude, true, (.text "deg"), "", "", 0⟩,
  ⟨"Reserved", 6, .binary, false, .nil, "reserved", "", 0⟩,
  ⟨"Addressed or Broadcast Message Indicator", 2, .one, false, .nil, "", "", 0⟩,
  ⟨"Channel A Bandwidth", 7, .integer, false, .nil, "", "", 0⟩,
  ⟨"Channel B Bandwidth", 7, .integer, false, .nil, "", "", 0⟩,
  ⟨"Reserved", 2, .binary, false, .nil, "reserved", "", 0⟩,
  ⟨"Transitional Zone Size", 8, .one, false, .nil, "", "", 0⟩]⟩

/-- pgn_array.go:1663, index 150. -/
def p150 : Pgn := ⟨"AIS Class B Group Assignment", "AIS", 129807, false, 8, 0, [
  ⟨"Message ID", 6, .one, false, .nil, "", "", 0⟩,
  ⟨"Repeat Indicator", 2, .lookup, false, (.lookup "lookupRepeatIndicator"), "", "", 0⟩,
  ⟨"Source ID", 30, .integer, false, .nil, "", "", 0⟩,
  ⟨"Reserved", 2, .binary, false, .nil, "reserved", "", 0⟩,
  ⟨"Tx/Rx Mode", 2, .integer, false, .nil, "", "", 0⟩,
  ⟨"Reserved", 6, .binary, false, .nil, "reserved", "", 0⟩,
  ⟨"North East Longitude Corner 1", 32, .longitude, true, (.text "deg"), "", "", 0⟩,
  ⟨"North East Latitude Corner 1", 32, .latitude, true, (.text "deg"), "", "", 0⟩,
  ⟨"South West Longitude Corner 1", 32, .longitude, true, (.text "deg"), "", "", 0⟩,
  ⟨"South West Latitude Corner 2", 32, .latitude, true, (.text "deg"), "", "", 0⟩,
  ⟨"Station Type", 8, .one, false, .nil, "", "", 0⟩,
  ⟨"Reserved", 2, .binary, false, .nil, "reserved", "", 0⟩,
  ⟨"Ship and Cargo Filter", 6, .one, false, .nil, "", "", 0⟩,
  ⟨"Reserved", 2, .binary, false, .nil, "reserved", "", 0⟩,
  ⟨"Reporting Interval", 16, .one, false, .nil, "", "", 0⟩,
  ⟨"Quiet Time", 16, .one, false, .nil, "", "", 0⟩]⟩

/-- pgn_array.go:1682, index 151. -/
def p151 : Pgn := ⟨"DSC Call Information", "Other", 129808, false, 8, 2, [
  ⟨"DSC Format Symbol", 8, .one, false, .nil, "", "", 0⟩,
  ⟨"DSC Category Symbol", 8, .one, false, .nil, "", "", 0⟩,
  ⟨"DSC Message Address", 8, .one, false, .nil, "", "", 0⟩,
  ⟨"Nature of Distress or 1st Telecommand", 8, .one, false, .nil, "", "", 0⟩,
  ⟨"Subsequent Communication Mode or 2nd Telecommand", 8, .one, false, .nil, "", "", 0⟩,
  ⟨"Proposed Rx Frequency/Channel", 8, .one, false, .nil, "", "", 0⟩,
  ⟨"Proposed Tx Frequency/Channel", 8, .one, false, .nil, "", "", 0⟩,
  ⟨"Telephone Number", 8, .one, false, .nil, "", "", 0⟩,
  ⟨"Latitude of Vessel Reported", 32, .latitude, true, (.text "deg"), "", "", 0⟩,
  ⟨"Longitude of Vessel Reported", 32, .longitude, true, (.text "deg"), "", "", 0⟩,
  ⟨"Time of Position", 32, .time, false, (.text "s"), "Seconds since midnight", "", 0⟩,
  ⟨"User ID of Ship In Distress", 32, .integer, false, (.text "MMSI"), "", "", 0⟩,
  ⟨"DSC EOS Symbol", 8, .one, false, .nil, "", "", 0⟩,
  ⟨"Expansion Enabled", 8, .one, false, .nil, "", "", 0⟩,
  ⟨"Calling Rx Frequency/Channel", 8, .one, false, .nil, "", "", 0⟩,
  ⟨"Calling Tx Frequency/Channel", 8, .one, false, .nil, "", "", 0⟩,
  ⟨"Time of Receipt", 32, .time, false, (.text "s"), "Seconds since midnight", "", 0⟩,
  ⟨"Date of Receipt", 16, .date, false, (.text "days"), "Days since January 1, 1970", "", 0⟩,
  ⟨"DSC Equipment Assigned Message ID", 8, .one, false, .nil, "", "", 0⟩,
  ⟨"DSC Expansion Field Symbol", 8, .one, false, .nil, "", "", 0⟩,
  ⟨"DSC Expansion Field Data", 8, .one, false, .nil, "", "", 0⟩]⟩

/-- pgn_array.go:1706, index 152. -/
def p152 : Pgn := ⟨"AIS Class B static data (msg 24 Part A)", "AIS", 129809, false, 25, 0, [
  ⟨"Message ID", 6, .one, false, .nil, "", "", 0⟩,
  ⟨"Repeat indicator", 2, .lookup, false, (.lookup "lookupRepeatIndicator"), "", "", 0⟩,
  ⟨"User ID", 32, .integer, false, (.text "MMSI"), "", "", 0⟩,
  ⟨"Name", 160, .ascii, false, .nil, "", "", 0⟩]⟩

/-- pgn_array.go:1713, index 153. -/
def p153 : Pgn := ⟨"AIS Class B static data (msg 24 Part B)", "AIS", 129810, false, 33, 0, [
  ⟨"Message ID", 6, .one, false, .nil, "", "", 0⟩,
  ⟨"Repeat indicator", 2, .lookup, false, (.lookup "lookupRepeatIndicator"), "", "", 0⟩,
  ⟨"User ID", 32, .integer, false, (.text "MMSI"), "", "", 0⟩,
  ⟨"Type of ship", 8, .lookup, false, (.lookup "lookupShipType"), "", "", 0⟩,
  ⟨"Vendor ID", 56, .ascii, false, .nil, "", "", 0⟩,
  ⟨"Callsign", 56, .ascii, false, .nil, "0=unavailable", "", 0⟩,
  ⟨"Length", 16, (.scale "0.1"), false, (.text "m"), "", "", 0⟩,
  ⟨"Beam", 16, (.scale "0.1"), false, (.text "m"), "", "", 0⟩,
  ⟨"Position reference from Starboard", 16, (.scale "0.1"), false, (.text "m"), "", "", 0⟩,
  ⟨"Position reference from Bow", 16, (.scale "0.1"), false, (.text "m"), "", "", 0⟩,
  ⟨"Mothership User ID", 32, .integer, false, (.text "MMSI"), "MMSI of mother ship sent by daughter vessels", "", 0⟩,
  ⟨"Reserved", 2, .binary, false, .nil, "reserved", "", 0⟩,
  ⟨"Spare", 6, .integer, false, .nil, "0=unavailable", "", 0⟩]⟩

/-- pgn_array.go:1729, index 154. -/
def p154 : Pgn := ⟨"Route and WP Service - Database List", "Navigation", 130064, false, 8, 9, [
  ⟨"Start Database ID", 8, .one, false, .nil, "", "", 0⟩,
  ⟨"nItems", 8, .one, false, .nil, "", "", 0⟩,
  ⟨"Number of Databases Available", 8, .one, false, .nil, "", "", 0⟩,
  ⟨"Database ID", 8, .one, false, .nil, "", "", 0⟩,
  ⟨"Database Name", 64, .ascii, false, .nil, "", "", 0⟩,
  ⟨"Database Timestamp", 32, .time, false, (.text "s"), "Seconds since midnight", "", 0⟩,
  ⟨"Database Datestamp", 16, .date, false, (.text "days"), "Days since January 1, 1970", "", 0⟩,
  ⟨"WP Position Resolution", 6, .one, false, .nil, "", "", 0⟩,
  ⟨"Reserved", 2, .binary, false, .nil, "reserved", "", 0⟩,
  ⟨"Number of Routes in Database", 16, .one, false, .nil, "", "", 0⟩,
  ⟨"Number of WPs in Database", 16, .one, false, .nil, "", "", 0⟩,
  ⟨"Number of Bytes in Database", 16, .one, false, .nil, "", "", 0⟩]⟩

/-- pgn_array.go:1744, index 155. -/
def p155 : Pgn := ⟨"Route and WP Service - Route List", "Navigation", 130065, false, 8, 6, [
  ⟨"Start Route ID", 8, .one, false, .nil, "", "", 0⟩,
  ⟨"nItems", 8, .one, false, .nil, "", "", 0⟩,
  ⟨"Number of Routes in Database", 8, .one, false, .nil, "", "", 0⟩,
  ⟨"Database ID", 8, .one, false, .nil, "", "", 0⟩,
  ⟨"Route ID", 8, .one, false, .nil, "", "", 0⟩,
  ⟨"Route Name", 64, .ascii, false, .nil, "", "", 0⟩,
  ⟨"Reserved", 4, .binary, false, .nil, "reserved", "", 0⟩,
  ⟨"WP Identification Method", 2, .one, false, .nil, "", "", 0⟩,
  ⟨"Route Status", 2, .one, false, .nil, "", "", 0⟩]⟩

/-- pgn_array.go:1756, index 156. -/
def p156 : Pgn := ⟨"Route and WP Service - Route/WP-List Attributes", "Navigation", 130066, false, 8, 0, [
  ⟨"Database ID", 8, .one, false, .nil, "", "", 0⟩,
  ⟨"Route ID", 8, .one, false, .nil, "", "", 0⟩,
  ⟨"Route/WP-List Name", 64, .ascii, false, .nil, "", "", 0⟩,
  ⟨"Route/WP-List Timestamp", 32, .time, false, (.text "s"), "Seconds since midnight", "", 0⟩,
  ⟨"Route/WP-List Datestamp", 16, .date, false, (.text "days"), "Days since January 1, 1970", "", 0⟩,
  ⟨"Change at Last Timestamp", 8, .one, false, .nil, "", "", 0⟩,
  ⟨"Number of WPs in the Route/WP-List", 16, .one, false, .nil, "", "", 0⟩,
  ⟨"Critical supplementary parameters", 8, .one, false, .nil, "", "", 0⟩,
  ⟨"Navigation Method", 2, .one, false, .nil, "", "", 0⟩,
  ⟨"WP Identification Method", 2, .one, false, .nil, "", "", 0⟩,
  ⟨"Route Status", 2, .one, false, .nil, "", "", 0⟩,
  ⟨"XTE Limit for the Route", 16, .one, false, .nil, "", "", 0⟩]⟩

/-- pgn_array.go:1771, index 157. -/
def p157 : Pgn := ⟨"Route and WP Service - Route - WP Name & Position", "Navigation", 130067, false, 8, 4, [
  ⟨"Start RPS#", 8, .one, false, .nil, "", "", 0⟩,
  ⟨"nItems", 8, .one, false, .nil, "", "", 0⟩,
  ⟨"Number of WPs in the Route/WP-List", 16, .one, false, .nil, "", "", 0⟩,
  ⟨"Database ID", 8, .one, false, .nil, "", "", 0⟩,
  ⟨"Route ID", 8, .one, false, .nil, "", "", 0⟩,
  ⟨"WP ID", 8, .one, false, .nil, "", "", 0⟩,
  ⟨"WP Name", 64, .ascii, false, .nil, "", "", 0⟩,
  ⟨"WP Latitude", 32, .latitude, true, (.text "deg"), "", "", 0⟩,
  ⟨"WP Longitude", 32, .longitude, true, (.text "deg"), "", "", 0⟩]⟩

/-- pgn_array.go:1783, index 158. -/
def p158 : Pgn := ⟨"Route and WP Service - Route - WP Name", "Navigation", 130068, false, 8, 2, [
  ⟨"Start RPS#", 8, .one, false, .nil, "", "", 0⟩,
  ⟨"nItems", 8, .one, false, .nil, "", "", 0⟩,
  ⟨"Number of WPs in the Route/WP-List", 16, .one, false, .nil, "", "", 0⟩,
  ⟨"Database ID", 8, .one, false, .nil, "", "", 0⟩,
  ⟨"Route ID", 8, .one, false, .nil, "", "", 0⟩,
  ⟨"WP ID", 8, .one, false, .nil, "", "", 0⟩,
  ⟨"WP Name", 64, .ascii, false, .nil, "", "", 0⟩]⟩

/-- pgn_array.go:1793, index 159. -/
def p159 : Pgn := ⟨"Route and WP Service - XTE Limit & Navigation Method", "Navigation", 130069, false, 8, 6, [
  ⟨"Start RPS#", 8, .one, false, .nil, "", "", 0⟩,
  ⟨"nItems", 8, .one, false, .nil, "", "", 0⟩,
  ⟨"Number of WPs with a specific XTE Limit or Nav. Method", 16, .one, false, .nil, "", "", 0⟩,
  ⟨"Database ID", 8, .one, false, .nil, "", "", 0⟩,
  ⟨"Route ID", 8, .one, false, .nil, "", "", 0⟩,
  ⟨"RPS#", 8, .one, false, .nil, "", "", 0⟩,
  ⟨"XTE limit in the leg after WP", 16, .one, false, .nil, "", "", 0⟩,
  ⟨"Nav. Method in the leg after WP", 4, .one, false, .nil, "", "", 0⟩,
  ⟨"Reserved", 4, .binary, false, .nil, "", "", 0⟩]⟩

/-- pgn_array.go:1805, index 160. -/
def p160 : Pgn := ⟨"Route and WP Service - WP Comment", "Navigation", 130070, false, 8, 2, [
  ⟨"Start ID", 8, .one, false, .nil, "", "", 0⟩,
  ⟨"nItems", 8, .one, false, .nil, "", "", 0⟩,
  ⟨"Number of WPs with Comments", 16, .one, false, .nil, "", "", 0⟩,
  ⟨"Database ID", 8, .one, false, .nil, "", "", 0⟩,
  ⟨"Route ID", 8, .one, false, .nil, "", "", 0⟩,
  ⟨"WP ID / RPS#", 8, .one, false, .nil, "", "", 0⟩,
  ⟨"Comment", 64, .ascii, false, .nil, "", "", 0⟩]⟩

/-- pgn_array.go:1815, index 161. -/
def p161 : Pgn := ⟨"Route and WP Service - Route Comment", "Navigation", 130071, false, 8, 2, [
  ⟨"Start Route ID", 8, .one, false, .nil, "", "", 0⟩,
  ⟨"nItems", 8, .one, false, .nil, "", "", 0⟩,
  ⟨"Number of Routes with Comments", 16, .one, false, .nil, "", "", 0⟩,
  ⟨"Database ID", 8, .one, false, .nil, "", "", 0⟩,
  ⟨"Route ID", 8, .one, false, .nil, "", "", 0⟩,
  ⟨"Comment", 64, .ascii, false, .nil, "", "", 0⟩]⟩

/-- pgn_array.go:1824, index 162. -/
def p162 : Pgn := ⟨"Route and WP Service - Database Comment", "Navigation", 130072, false, 8, 2, [
  ⟨"Start Database ID", 8, .one, false, .nil, "", "", 0⟩,
  ⟨"nItems", 8, .one, false, .nil, "", "", 0⟩,
  ⟨"Number of Databases with Comments", 16, .one, false, .nil, "", "", 0⟩,
  ⟨"Database ID", 8, .one, false, .nil, "", "", 0⟩,
  ⟨"Comment", 64, .ascii, false, .nil, "", "", 0⟩]⟩

/-- pgn_array.go:1832, index 163. -/
def p163 : Pgn := ⟨"Route and WP Service - Radius of Turn", "Navigation", 130073, false, 8, 2, [
  ⟨"Start RPS#", 8, .one, false, .nil, "", "", 0⟩,
  ⟨"nItems", 8, .one, false, .nil, "", "", 0⟩,
  ⟨"Number of WPs with a specific Radius of Turn", 16, .one, false, .nil, "", "", 0⟩,
  ⟨"Database ID", 8, .one, false, .nil, "", "", 0⟩,
  ⟨"Route ID", 8, .one, false, .nil, "", "", 0⟩,
  ⟨"RPS#", 8, .one, false, .nil, "", "", 0⟩,
  ⟨"Radius of Turn", 16, .one, false, .nil, "", "", 0⟩]⟩

/-- pgn_array.go:1842, index 164. -/
def p164 : Pgn := ⟨"Route and WP Service - WP List - WP Name & Position", "Navigation", 130074, false, 8, 4, [
  ⟨"Start WP ID", 8, .one, false, .nil, "", "", 0⟩,
  ⟨"nItems", 8, .one, false, .nil, "", "", 0⟩,
  ⟨"Number of valid WPs in the WP-List", 16, .one, false, .nil, "", "", 0⟩,
  ⟨"Database ID", 8, .one, false, .nil, "", "", 0⟩,
  ⟨"Reserved", 8, .one, false, .nil, "reserved", "", 0⟩,
  ⟨"WP ID", 8, .one, false, .nil, "", "", 0⟩,
  ⟨"WP Name", 64, .ascii, false, .nil, "", "", 0⟩,
  ⟨"WP Latitude", 32, .latitude, true, (.text "deg"), "", "", 0⟩,
  ⟨"WP Longitude", 32, .longitude, true, (.text "deg"), "", "", 0⟩]⟩

/-- pgn_array.go:1855, index 165. -/
def p165 : Pgn := ⟨"Wind Data", "Environmental", 130306, true, 6, 0, [
  ⟨"SID", 8, .one, false, .nil, "", "", 0⟩,
  ⟨"Wind Speed", 16, (.scale "0.01"), false, (.text "m/s"), "", "", 0⟩,
  ⟨"Wind Angle", 16, (.scale "RES_DEGREES"), false, (.text "deg"), "", "", 0⟩,
  ⟨"Reference", 3, .lookup, false, (.lookup "lookupWindReference"), "", "", 0⟩]⟩

/-- pgn_array.go:1863, index 166. -/
def p166 : Pgn := ⟨"Environmental Parameters", "Environmental", 130310, true, 7, 0, [
  ⟨"SID", 8, .one, false, .nil, "", "", 0⟩,
  ⟨"Water Temperature", 16, .temperature, false, (.text "K"), "", "environment.waterTemp", 0⟩,
  ⟨"Outside Ambient Air Temperature", 16, .temperature, false, (.text "K"), "", "environment.airTemp", 0⟩,
  ⟨"Atmospheric Pressure", 16, .pressure, false, (.text "hPa"), "", "environment.airPressure", 0⟩]⟩

/-- pgn_array.go:1870, index 167. -/
def p167 : Pgn := ⟨"Environmental Parameters", "Environmental", 130311, true, 8, 0, [
  ⟨"SID", 8, .one, false, .nil, "", "", 0⟩,
  ⟨"Temperature Instance", 6, .lookup, false, (.lookup "lookupTemperatureSource"), "", "", 0⟩,
  ⟨"Humidity Instance", 2, .lookup, false, (.lookup "lookupHumidityInstance"), "", "", 0⟩,
  ⟨"Temperature", 16, .temperature, false, (.text "K"), "", "", 0⟩,
  ⟨"Humidity", 16, (.scale "0.004"), true, (.text "%%"), "", "", 0⟩,
  ⟨"Atmospheric Pressure", 16, .pressure, false, (.text "hPa"), "", "", 0⟩]⟩

/-- pgn_array.go:1879, index 168. -/
def p168 : Pgn := ⟨"Temperature", "Environmental", 130312, true, 8, 0, [
  ⟨"SID", 8, .one, false, .nil, "", "", 0⟩,
  ⟨"Temperature Instance", 8, .one, false, .nil, "", "", 0⟩,
  ⟨"Temperature Source", 8, .lookup, false, (.lookup "lookupTemperatureSource"), "", "", 0⟩,
  ⟨"Actual Temperature", 16, .temperature, false, (.text "K"), "", "", 0⟩,
  ⟨"Set Temperature", 16, .temperature, false, (.text "K"), "", "", 0⟩]⟩

/-- pgn_array.go:1887, index 169. -/
def p169 : Pgn := ⟨"Humidity", "Environmental", 130313, true, 8, 0, [
  ⟨"SID", 8, .one, false, .nil, "", "", 0⟩,
  ⟨"Humidity Instance", 8, .one, false, .nil, "", "", 0⟩,
  ⟨"Humidity Source", 8, .one, false, .nil, "", "", 0⟩,
  ⟨"Actual Humidity", 16, (.scale "100.0 / 25000"), true, (.text "%%"), "", "", 0⟩,
  ⟨"Set Humidity", 16, (.scale "100.0 / 25000"), true, (.text "%%"), "", "", 0⟩]⟩

/-- pgn_array.go:1896, index 170. -/
def p170 : Pgn := ⟨"Actual Pressure", "Environmental", 130314, true, 8, 0, [
  ⟨"SID", 8, .one, false, .nil, "", "", 0⟩,
  ⟨"Pressure Instance", 8, .one, false, .nil, "", "", 0⟩,
  ⟨"Pressure Source", 8, .lookup, false, (.lookup "lookupPressureSource"), "", "", 0⟩,
  ⟨"Pressure", 32, (.scale "0.1"), true, (.text "Pa"), "", "", 0⟩]⟩

/-- pgn_array.go:1904, index 171. -/
def p171 : Pgn := ⟨"Set Pressure", "General", 130315, true, 8, 0, [
  ⟨"SID", 8, .one, false, .nil, "", "", 0⟩,
  ⟨"Pressure Instance", 8, .one, false, .nil, "", "", 0⟩,
  ⟨"Pressure Source", 8, .lookup, false, (.lookup "lookupPressureSource"), "", "", 0⟩,
  ⟨"Pressure", 32, (.scale "0.1"), true, (.text "Pa"), "", "", 0⟩]⟩

/-- pgn_array.go:1911, index 172. -/
def p172 : Pgn := ⟨"Tide Station Data", "Environmental", 130320, true, 20, 0, [
  ⟨"Mode", 4, .lookup, false, (.lookup "lookupResidualMode"), "", "", 0⟩,
  ⟨"Tide Tendency", 2, .lookup, false, (.lookup "lookupTideTendency"), "", "", 0⟩,
  ⟨"Reserved", 2, .binary, false, .nil, "", "", 0⟩,
  ⟨"Measurement Date", 16, .date, false, (.text "days"), "Days since January 1, 1970", "", 0⟩,
  ⟨"Measurement Time", 32, .time, false, (.text "s"), "Seconds since midnight", "", 0⟩,
  ⟨"Station Latitude", 32, .latitude, true, (.text "deg"), "", "", 0⟩,
  ⟨"Station Longitude", 32, .longitude, true, (.text "deg"), "", "", 0⟩,
  ⟨"Tide Level", 16, (.scale "0.001"), true, (.text "m"), "Relative to MLLW", "", 0⟩,
  ⟨"Tide Level standard deviation", 16, (.scale "0.01"), false, (.text "m"), "", "", 0⟩,
  ⟨"Station ID", 16, .string, false, .nil, "", "", 0⟩,
  ⟨"Station Name", 16, .string, false, .nil, "", "", 0⟩]⟩

/-- pgn_array.go:1925, index 173. -/
def p173 : Pgn := ⟨"Salinity Station Data", "Environmental", 130321, true, 22, 0, [
  ⟨"Mode", 4, .lookup, false, (.lookup "lookupResidualMode"), "", "", 0⟩,
  ⟨"Reserved", 4, .binary, false, .nil, "", "", 0⟩,
  ⟨"Measurement Date", 16, .date, false, (.text "days"), "Days since January 1, 1970", "", 0⟩,
  ⟨"Measurement Time", 32, .time, false, (.text "s"), "Seconds since midnight", "", 0⟩,
  ⟨"Station Latitude", 32, .latitude, true, (.text "deg"), "", "", 0⟩,
  ⟨"Station Longitude", 32, .longitude, true, (.text "deg"), "", "", 0⟩,
  ⟨"Salinity", 32, .float, true, (.text "ppt"), "The average Salinity of ocean water is about 35 grams of salts per kilogram of sea water (g/kg), usually written as 35 ppt which is read as 35 parts per thousand.", "", 0⟩,
  ⟨"Water Temperature", 16, .temperature, false, (.text "K"), "", "", 0⟩,
  ⟨"Station ID", 16, .string, false, .nil, "", "", 0⟩,
  ⟨"Station Name", 16, .string, false, .nil, "", "", 0⟩]⟩

/-- pgn_array.go:1938, index 174. -/
def p174 : Pgn := ⟨"Current Station Data", "Environmental", 130322, false, 8, 0, [
  ⟨"Mode", 4, .one, false, .nil, "", "", 0⟩,
  ⟨"Reserved", 4, .binary, false, .nil, "", "", 0⟩,
  ⟨"Measurement Date", 16, .date, false, (.text "days"), "Days since January 1, 1970", "", 0⟩,
  ⟨"Measurement Time", 32, .time, false, (.text "s"), "Seconds since midnight", "", 0⟩,
  ⟨"Station Latitude", 32, .latitude, true, (.text "deg"), "", "", 0⟩,
  ⟨"Station Longitude", 32, .longitude, true, (.text "deg"), "", "", 0⟩,
  ⟨"Measurement Depth", 32, (.scale "0.01"), false, (.text "m"), "Depth below transducer", "", 0⟩,
  ⟨"Current speed", 16, (.scale "0.01"), false, (.text "m/s"), "", "", 0⟩,
  ⟨"Current flow direction", 16, (.scale "RES_DEGREES"), false, (.text "deg"), "", "", 0⟩,
  ⟨"Water Temperature", 16, .temperature, false, (.text "K"), "", "", 0⟩,
  ⟨"Station ID", 16, .string, false, .nil, "", "", 0⟩,
  ⟨"Station Name", 16, .string, false, .nil, "", "", 0⟩]⟩

/-- pgn_array.go:1953, index 175. -/
def p175 : Pgn := ⟨"Meteorological Station Data", "Environmental", 130323, false, 30, 0, [
  ⟨"Mode", 4, .one, false, .nil, "", "", 0⟩,
  ⟨"Reserved", 4, .binary, false, .nil, "", "", 0⟩,
  ⟨"Measurement Date", 16, .date, false, (.text "days"), "Days since January 1, 1970", "", 0⟩,
  ⟨"Measurement Time", 32, .time, false, (.text "s"), "Seconds since midnight", "", 0⟩,
  ⟨"Station Latitude", 32, .latitude, true, (.text "deg"), "", "", 0⟩,
  ⟨"Station Longitude", 32, .longitude, true, (.text "deg"), "", "", 0⟩,
  ⟨"Wind Speed", 16, (.scale "0.01"), false, (.text "m/s"), "", "", 0⟩,
  ⟨"Wind Direction", 16, (.scale "RES_DEGREES"), false, (.text "deg"), "", "", 0⟩,
  ⟨"Wind Reference", 3, .lookup, false, (.lookup "lookupWindReference"), "", "", 0⟩,
  ⟨"Reserved", 5, .binary, false, .nil, "reserved", "", 0⟩,
  ⟨"Wind Gusts", 16, (.scale "0.01"), false, (.text "m/s"), "", "", 0⟩,
  ⟨"Atmospheric Pressure", 16, .pressure, false, (.text "hPa"), "", "", 0⟩,
  ⟨"Ambient Temperature", 16, .temperature, false, (.text "K"), "", "", 0⟩,
  ⟨"Station ID", 16, .string, false, .nil, "", "", 0⟩,
  ⟨"Station Name", 16, .string, false, .nil, "", "", 0⟩]⟩

/-- pgn_array.go:1971, index 176. -/
def p176 : Pgn := ⟨"Moored Buoy Station Data", "Environmental", 130324, false, 8, 0, [
  ⟨"Mode", 4, .one, false, .nil, "", "", 0⟩,
  ⟨"Reserved", 4, .binary, false, .nil, "", "", 0⟩,
  ⟨"Measurement Date", 16, .date, false, (.text "days"), "Days since January 1, 1970", "", 0⟩,
  ⟨"Measurement Time", 32, .time, false, (.text "s"), "Seconds since midnight", "", 0⟩,
  ⟨"Station Latitude", 32, .latitude, true, (.text "deg"), "", "", 0⟩,
  ⟨"Station Longitude", 32, .longitude, true, (.text "deg"), "", "", 0⟩,
  ⟨"Wind Speed", 16, (.scale "0.01"), false, (.text "m/s"), "", "", 0⟩,
  ⟨"Wind Direction", 16, (.scale "RES_DEGREES"), false, (.text "deg"), "", "", 0⟩,
  ⟨"Wind Reference", 3, .lookup, false, (.lookup "lookupWindReference"), "", "", 0⟩,
  ⟨"Reserved", 5, .binary, false, .nil, "reserved", "", 0⟩,
  ⟨"Wind Gusts", 16, (.scale "0.01"), false, (.text "m/s"), "", "", 0⟩,
  ⟨"Wave Height", 16, .one, false, .nil, "", "", 0⟩,
  ⟨"Dominant Wave Period", 16, .one, false, .nil, "", "", 0⟩,
  ⟨"Atmospheric Pressure", 16, .pressure, false, (.text "hPa"), "", "", 0⟩,
  ⟨"Pressure Tendency Rate", 16, .one, false, .nil, "", "", 0⟩,
  ⟨"Air Temperature", 16, .temperature, false, (.text "K"), "", "", 0⟩,
  ⟨"Water Temperature", 16, .temperature, false, (.text "K"), "", "", 0⟩,
  ⟨"Station ID", 64, .ascii, false, .nil, "", "", 0⟩]⟩

/-- pgn_array.go:1992, index 177. -/
def p177 : Pgn := ⟨"Small Craft Status", "General", 130576, true, 2, 0, [
  ⟨"Port trim tab", 8, .one, true, .nil, "", "", 0⟩,
  ⟨"Starboard trim tab", 8, .one, true, .nil, "", "", 0⟩]⟩

/-- pgn_array.go:1997, index 178. -/
def p178 : Pgn := ⟨"Direction Data", "General", 130577, true, 14, 0, [
  ⟨"Data Mode", 4, .lookup, false, (.lookup "lookupResidualMode"), "", "", 0⟩,
  ⟨"COG Reference", 2, .lookup, false, (.lookup "lookupDirectionReference"), "", "", 0⟩,
  ⟨"Reserved", 2, .binary, false, .nil, "Reserved", "", 0⟩,
  ⟨"SID", 8, .one, false, .nil, "", "", 0⟩,
  ⟨"COG", 16, (.scale "RES_DEGREES"), false, (.text "deg"), "", "", 0⟩,
  ⟨"SOG", 16, (.scale "0.01"), false, (.text "m/s"), "", "", 0⟩,
  ⟨"Heading", 16, (.scale "RES_DEGREES"), false, (.text "deg"), "", "", 0⟩,
  ⟨"Speed through Water", 16, (.scale "0.01"), false, (.text "m/s"), "", "", 0⟩,
  ⟨"Set", 16, (.scale "RES_DEGREES"), false, (.text "deg"), "", "", 0⟩,
  ⟨"Drift", 16, (.scale "0.01"), false, (.text "m/s"), "", "", 0⟩]⟩

/-- pgn_array.go:2010, index 179. -/
def p179 : Pgn := ⟨"Vessel Speed Components", "General", 130578, true, 12, 0, [
  ⟨"Longitudinal Speed, Water-referenced", 16, (.scale "0.001"), true, (.text "m/s"), "", "", 0⟩,
  ⟨"Transverse Speed, Water-referenced", 16, (.scale "0.001"), true, (.text "m/s"), "", "", 0⟩,
  ⟨"Longitudinal Speed, Ground-referenced", 16, (.scale "0.001"), true, (.text "m/s"), "", "", 0⟩,
  ⟨"Transverse Speed, Ground-referenced", 16, (.scale "0.001"), true, (.text "m/s"), "", "", 0⟩,
  ⟨"Stern Speed, Water-referenced", 16, (.scale "0.001"), true, (.text "m/s"), "", "", 0⟩,
  ⟨"Stern Speed, Ground-referenced", 16, (.scale "0.001"), true, (.text "m/s"), "", "", 0⟩]⟩

/-- pgn_array.go:2019, index 180. -/
def p180 : Pgn := ⟨"SonicHub: Init #2", "Entertainment", 130816, false, 9, 0, [
  ⟨"Manufacturer Code", 11, .manufacturer, false, (.must 275), "Navico", "", 0⟩,
  ⟨"Reserved", 2, .one, false, .nil, "", "", 0⟩,
  ⟨"Industry Code", 3, .lookup, false, (.lookup "lookupIndustryCode"), "", "", 0⟩,
  ⟨"Reserved", 8, .one, false, .nil, "", "", 0⟩,
  ⟨"Proprietary ID", 8, .lookup, false, (.must 1), "Init #2", "", 0⟩,
  ⟨"Control", 8, .lookup, false, (.lookup "lookupSonicHubControl"), "", "", 0⟩,
  ⟨"A", 16, .integer, false, .nil, "", "", 0⟩,
  ⟨"B", 16, .integer, false, .nil, "", "", 0⟩]⟩

/-- pgn_array.go:2030, index 181. -/
def p181 : Pgn := ⟨"SonicHub: AM Radio", "Entertainment", 130816, false, 64, 0, [
  ⟨"Manufacturer Code", 11, .manufacturer, false, (.lookup "lookupCompanyCode"), "Navico", "", 0⟩,
  ⟨"Reserved", 2, .one, false, .nil, "", "", 0⟩,
  ⟨"Industry Code", 3, .lookup, false, (.must 275), "", "", 0⟩,
  ⟨"Reserved", 8, .one, false, .nil, "", "", 0⟩,
  ⟨"Proprietary ID", 8, .lookup, false, (.must 4), "AM Radio", "", 0⟩,
  ⟨"Control", 8, .lookup, false, (.lookup "lookupSonicHubControl"), "", "", 0⟩,
  ⟨"Item", 8, .lookup, false, (.lookup "lookupSonicHubTuning"), "", "", 0⟩,
  ⟨"Frequency", 32, (.scale "0.001"), false, (.text "kHz"), "", "", 0⟩,
  ⟨"Noise level", 2, .one, false, .nil, "", "", 0⟩,
  ⟨"Signal level", 4, .one, false, .nil, "", "", 0⟩,
  ⟨"Reserved", 2, .one, false, .nil, "", "", 0⟩,
  ⟨"Text", 256, .stringLZ, false, .nil, "", "", 0⟩]⟩

/-- pgn_array.go:2045, index 182. -/
def p182 : Pgn := ⟨"SonicHub: Zone Info", "Entertainment", 130816, false, 6, 0, [
  ⟨"Manufacturer Code", 11, .manufacturer, false, (.must 275), "Navico", "", 0⟩,
  ⟨"Reserved", 2, .one, false, .nil, "", "", 0⟩,
  ⟨"Industry Code", 3, .lookup, false, (.lookup "lookupIndustryCode"), "", "", 0⟩,
  ⟨"Reserved", 8, .one, false, .nil, "", "", 0⟩,
  ⟨"Proprietary ID", 8, .lookup, false, (.must 5), "Zone info", "", 0⟩,
  ⟨"Control", 8, .lookup, false, (.lookup "lookupSonicHubControl"), "", "", 0⟩,
  ⟨"Zone", 8, .integer, false, .nil, "", "", 0⟩]⟩

/-- pgn_array.go:2055, index 183. -/
def p183 : Pgn := ⟨"SonicHub: Source", "Entertainment", 130816, false, 64, 0, [
  ⟨"Manufacturer Code", 11, .manufacturer, false, (.must 275), "Navico", "", 0⟩,
  ⟨"Reserved", 2, .one, false, .nil, "", "", 0⟩,
  ⟨"Industry Code", 3, .lookup, false, (.lookup "lookupIndustryCode"), "", "", 0⟩,
  ⟨"Reserved", 8, .one, false, .nil, "", "", 0⟩,
  ⟨"Proprietary ID", 8, .lookup, false, (.must 6), "Source", "", 0⟩,
  ⟨"Control", 8, .lookup, false, (.lookup "lookupSonicHubControl"), "", "", 0⟩,
  ⟨"Source", 8, .lookup, false, (.lookup "lookupSonicHubSource"), "", "", 0⟩]⟩

/-- pgn_array.go:2065, index 184. -/
def p184 : Pgn := ⟨"SonicHub: Source List", "Entertainment", 130816, false, 64, 0, [
  ⟨"Manufacturer Code", 11, .manufacturer, false, (.must 275), "Navico", "", 0⟩,
  ⟨"Reserved", 2, .one, false, .nil, "", "", 0⟩,
  ⟨"Industry Code", 3, .lookup, false, (.lookup "lookupIndustryCode"), "", "", 0⟩,
  ⟨"Reserved", 8, .one, false, .nil, "", "", 0⟩,
  ⟨"Proprietary ID", 8, .lookup, false, (.must 8), "Source list", "", 0⟩,
  ⟨"Control", 8, .lookup, false, (.lookup "lookupSonicHubControl"), "", "", 0⟩,
  ⟨"Source ID", 8, .integer, false, .nil, "", "", 0⟩,
  ⟨"A", 8, .integer, false, .nil, "", "", 0⟩,
  ⟨"Text", 256, .stringLZ, false, .nil, "", "", 0⟩]⟩

/-- pgn_array.go:2077, index 185. -/
def p185 : Pgn := ⟨"SonicHub: Mute Control", "Entertainment", 130816, false, 64, 0, [
  ⟨"Manufacturer Code", 11, .manufacturer, false, (.must 275), "Navico", "", 0⟩,
  ⟨"Reserved", 2, .one, false, .nil, "", "", 0⟩,
  ⟨"Industry Code", 3, .lookup, false, (.lookup "lookupIndustryCode"), "", "", 0⟩,
  ⟨"Reserved", 8, .one, false, .nil, "", "", 0⟩,
  ⟨"Proprietary ID", 8, .lookup, false, (.must 9), "Control", "", 0⟩,
  ⟨"Control", 8, .lookup, false, (.lookup "lookupSonicHubControl"), "", "", 0⟩,
  ⟨"Item", 8, .lookup, false, (.lookup "lookupSonicHubMute"), "", "", 0⟩]⟩

/-- pgn_array.go:2087, index 186. -/
def p186 : Pgn := ⟨"SonicHub: FM Radio", "Entertainment", 130816, false, 64, 0, [
  ⟨"Manufacturer Code", 11, .manufacturer, false, (.must 275), "Navico", "", 0⟩,
  ⟨"Reserved", 2, .one, false, .nil, "", "", 0⟩,
  ⟨"Industry Code", 3, .lookup, false, (.lookup "lookupIndustryCode"), "", "", 0⟩,
  ⟨"Reserved", 8, .one, false, .nil, "", "", 0⟩,
  ⟨"Proprietary ID", 8, .lookup, false, (.must 12), "FM Radio", "", 0⟩,
  ⟨"Control", 8, .lookup, false, (.lookup "lookupSonicHubControl"), "", "", 0⟩,
  ⟨"Item", 8, .lookup, false, (.lookup "lookupSonicHubTuning"), "", "", 0⟩,
  ⟨"Frequency", 32, (.scale "0.001"), false, (.text "kHz"), "", "", 0⟩,
  ⟨"Noise level", 2, .one, false, .nil, "", "", 0⟩,
  ⟨"Signal level", 4, .one, false, .nil, "", "", 0⟩,
  ⟨"Reserved", 2, .one, false, .nil, "", "", 0⟩,
  ⟨"Text", 256, .stringLZ, false, .nil, "", "", 0⟩]⟩

/-- pgn_array.go:2102, index 187. -/
def p187 : Pgn := ⟨"SonicHub: Playlist", "Entertainment", 130816, false, 64, 0, [
  ⟨"Manufacturer Code", 11, .manufacturer, false, (.must 275), "Navico", "", 0⟩,
  ⟨"Reserved", 2, .one, false, .nil, "", "", 0⟩,
  ⟨"Industry Code", 3, .lookup, false, (.lookup "lookupIndustryCode"), "", "", 0⟩,
  ⟨"Reserved", 8, .one, false, .nil, "", "", 0⟩,
  ⟨"Proprietary ID", 8, .lookup, false, (.must 13), "Playlist", "", 0⟩,
  ⟨"Control", 8, .lookup, false, (.lookup "lookupSonicHubControl"), "", "", 0⟩,
  ⟨"Item", 8, .lookup, false, (.lookup "lookupSonicHubPlaylist"), "", "", 0⟩,
  ⟨"A", 8, .integer, false, .nil, "", "", 0⟩,
  ⟨"Current Track", 32, .integer, false, .nil, "", "", 0⟩,
  ⟨"Tracks", 32, .integer, false, .nil, "", "", 0⟩,
  ⟨"Length", 32, (.scale "0.001"), false, .nil, "Seconds", "", 0⟩,
  ⟨"Position in track", 32, (.scale "0.001"), false, .nil, "Seconds", "", 0⟩]⟩

/-- pgn_array.go:2117, index 188. -/
def p188 : Pgn := ⟨"SonicHub: Track", "Entertainment", 130816, false, 64, 0, [
  ⟨"Manufacturer Code", 11, .manufacturer, false, (.must 275), "Navico", "", 0⟩,
  ⟨"Reserved", 2, .one, false, .nil, "", "", 0⟩,
  ⟨"Industry Code", 3, .lookup, false, (.lookup "lookupIndustryCode"), "", "", 0⟩,
  ⟨"Reserved", 8, .one, false, .nil, "", "", 0⟩,
  ⟨"Proprietary ID", 8, .lookup, false, (.must 14), "Track", "", 0⟩,
  ⟨"Control", 8, .lookup, false, (.lookup "lookupSonicHubControl"), "", "", 0⟩,
  ⟨"Item", 32, .integer, false, .nil, "", "", 0⟩,
  ⟨"Text", 256, .stringLZ, false, .nil, "", "", 0⟩]⟩

/-- pgn_array.go:2128, index 189. -/
def p189 : Pgn := ⟨"SonicHub: Artist", "Entertainment", 130816, false, 64, 0, [
  ⟨"Manufacturer Code", 11, .manufacturer, false, (.must 275), "Navico", "", 0⟩,
  ⟨"Reserved", 2, .one, false, .nil, "", "", 0⟩,
  ⟨"Industry Code", 3, .lookup, false, (.lookup "lookupIndustryCode"), "", "", 0⟩,
  ⟨"Reserved", 8, .one, false, .nil, "", "", 0⟩,
  ⟨"Proprietary ID", 8, .lookup, false, (.must 15), "Artist", "", 0⟩,
  ⟨"Control", 8, .lookup, false, (.lookup "lookupSonicHubControl"), "", "", 0⟩,
  ⟨"Item", 32, .integer, false, .nil, "", "", 0⟩,
  ⟨"Text", 256, .stringLZ, false, .nil, "", "", 0⟩]⟩

/-- pgn_array.go:2139, index 190. -/
def p190 : Pgn := ⟨"SonicHub: Album", "Entertainment", 130816, false, 64, 0, [
  ⟨"Manufacturer Code", 11, .manufacturer, false, (.must 275), "Navico", "", 0⟩,
  ⟨"Reserved", 2, .one, false, .nil, "", "", 0⟩,
  ⟨"Industry Code", 3, .lookup, false, (.lookup "lookupIndustryCode"), "", "", 0⟩,
  ⟨"Reserved", 8, .one, false, .nil, "", "", 0⟩,
  ⟨"Proprietary ID", 8, .lookup, false, (.must 16), "Album", "", 0⟩,
  ⟨"Control", 8, .lookup, false, (.lookup "lookupSonicHubControl"), "", "", 0⟩,
  ⟨"Item", 32, .integer, false, .nil, "", "", 0⟩,
  ⟨"Text", 256, .stringLZ, false, .nil, "", "", 0⟩]⟩

/-- pgn_array.go:2150, index 191. -/
def p191 : Pgn := ⟨"SonicHub: Menu Item", "Entertainment", 130816, false, 64, 0, [
  ⟨"Manufacturer Code", 11, .manufacturer, false, (.must 275), "Navico", "", 0⟩,
  ⟨"Reserved", 2, .one, false, .nil, "", "", 0⟩,
  ⟨"Industry Code", 3, .lookup, false, (.lookup "lookupIndustryCode"), "", "", 0⟩,
  ⟨"Reserved", 8, .one, false, .nil, "", "", 0⟩,
  ⟨"Proprietary ID", 8, .lookup, false, (.must 19), "Menu Item", "", 0⟩,
  ⟨"Control", 8, .lookup, false, (.lookup "lookupSonicHubControl"), "", "", 0⟩,
  ⟨"Item", 32, .integer, false, .nil, "", "", 0⟩,
  ⟨"C", 8, .one, false, .nil, "", "", 0⟩,
  ⟨"D", 8, .one, false, .nil, "", "", 0⟩,
  ⟨"E", 8, .one, false, .nil, "", "", 0⟩,
  ⟨"Text", 256, .stringLZ, false, .nil, "", "", 0⟩]⟩

/-- pgn_array.go:2164, index 192. -/
def p192 : Pgn := ⟨"SonicHub: Zones", "Entertainment", 130816, false, 64, 0, [
  ⟨"Manufacturer Code", 11, .manufacturer, false, (.must 275), "Navico", "", 0⟩,
  ⟨"Reserved", 2, .one, false, .nil, "", "", 0⟩,
  ⟨"Industry Code", 3, .lookup, false, (.lookup "lookupIndustryCode"), "", "", 0⟩,
  ⟨"Reserved", 8, .one, false, .nil, "", "", 0⟩,
  ⟨"Proprietary ID", 8, .lookup, false, (.must 20), "Zones", "", 0⟩,
  ⟨"Control", 8, .lookup, false, (.lookup "lookupSonicHubControl"), "", "", 0⟩,
  ⟨"Zones", 8, .integer, false, .nil, "", "", 0⟩]⟩

/-- pgn_array.go:2174, index 193. -/
def p193 : Pgn := ⟨"SonicHub: Max Volume", "Entertainment", 130816, false, 64, 0, [
  ⟨"Manufacturer Code", 11, .manufacturer, false, (.must 275), "Navico", "", 0⟩,
  ⟨"Reserved", 2, .one, false, .nil, "", "", 0⟩,
  ⟨"Industry Code", 3, .lookup, false, (.lookup "lookupIndustryCode"), "", "", 0⟩,
  ⟨"Reserved", 8, .one, false, .nil, "", "", 0⟩,
  ⟨"Proprietary ID", 8, .lookup, false, (.must 23), "Max Volume", "", 0⟩,
  ⟨"Control", 8, .lookup, false, (.lookup "lookupSonicHubControl"), "", "", 0⟩,
  ⟨"Zone", 8, .lookup, false, (.lookup "lookupSonicHubZone"), "", "", 0⟩,
  ⟨"Level", 8, .integer, false, .nil, "", "", 0⟩]⟩

/-- pgn_array.go:2185, index 194. -/
def p194 : Pgn := ⟨"SonicHub: Volume", "Entertainment", 130816, false, 64, 0, [
  ⟨"Manufacturer Code", 11, .manufacturer, false, (.must 275), "Navico", "", 0⟩,
  ⟨"Reserved", 2, .one, false, .nil, "", "", 0⟩,
  ⟨"Industry Code", 3, .lookup, false, (.lookup "lookupIndustryCode"), "", "", 0⟩,
  ⟨"Reserved", 8, .one, false, .nil, "", "", 0⟩,
  ⟨"Proprietary ID", 8, .lookup, false, (.must 24), "Volume", "", 0⟩,
  ⟨"Control", 8, .lookup, false, (.lookup "lookupSonicHubControl"), "", "", 0⟩,
  ⟨"Zone", 8, .lookup, false, (.lookup "lookupSonicHubZone"), "", "", 0⟩,
  ⟨"Level", 8, .integer, false, .nil, "", "", 0⟩]⟩

/-- pgn_array.go:2196, index 195. -/
def p195 : Pgn := ⟨"SonicHub: Init #1", "Entertainment", 130816, false, 64, 0, [
  ⟨"Manufacturer Code", 11, .manufacturer, false, (.must 275), "Navico", "", 0⟩,
  ⟨"Reserved", 2, .one, false, .nil, "", "", 0⟩,
  ⟨"Industry Code", 3, .lookup, false, (.lookup "lookupIndustryCode"), "", "", 0⟩,
  ⟨"Reserved", 8, .one, false, .nil, "", "", 0⟩,
  ⟨"Proprietary ID", 8, .lookup, false, (.must 25), "Init #1", "", 0⟩,
  ⟨"Control", 8, .lookup, false, (.lookup "lookupSonicHubControl"), "", "", 0⟩]⟩

/-- pgn_array.go:2205, index 196. -/
def p196 : Pgn := ⟨"SonicHub: Position", "Entertainment", 130816, true, 64, 0, [
  ⟨"Manufacturer Code", 11, .manufacturer, false, (.must 275), "Navico", "", 0⟩,
  ⟨"Reserved", 2, .one, false, .nil, "", "", 0⟩,
  ⟨"Industry Code", 3, .lookup, false, (.lookup "lookupIndustryCode"), "", "", 0⟩,
  ⟨"Reserved", 8, .one, false, .nil, "", "", 0⟩,
  ⟨"Proprietary ID", 8, .lookup, false, (.must 48), "Position", "", 0⟩,
  ⟨"Control", 8, .lookup, false, (.lookup "lookupSonicHubControl"), "", "", 0⟩,
  ⟨"Position", 32, (.scale "0.001"), false, .nil, "Seconds", "", 0⟩]⟩

/-- pgn_array.go:2215, index 197. -/
def p197 : Pgn := ⟨"SonicHub: Init #3", "Entertainment", 130816, false, 9, 0, [
  ⟨"Manufacturer Code", 11, .manufacturer, false, (.must 275), "Navico", "", 0⟩,
  ⟨"Reserved", 2, .one, false, .nil, "", "", 0⟩,
  ⟨"Industry Code", 3, .lookup, false, (.lookup "lookupIndustryCode"), "", "", 0⟩,
  ⟨"Reserved", 8, .one, false, .nil, "", "", 0⟩,
  ⟨"Proprietary ID", 8, .lookup, false, (.must 50), "Init #3", "", 0⟩,
  ⟨"Control", 8, .lookup, false, (.lookup "lookupSonicHubControl"), "", "", 0⟩,
  ⟨"A", 8, .integer, false, .nil, "", "", 0⟩,
  ⟨"B", 8, .integer, false, .nil, "", "", 0⟩]⟩

/-- pgn_array.go:2226, index 198. -/
def p198 : Pgn := ⟨"Simrad: Text Message", "Simrad", 130816, false, 64, 0, [
  ⟨"Manufacturer Code", 11, .manufacturer, false, (.must 1857), "", "", 0⟩,
  ⟨"Reserved", 2, .one, false, .nil, "", "", 0⟩,
  ⟨"Industry Code", 3, .lookup, false, (.lookup "lookupIndustryCode"), "", "", 0⟩,
  ⟨"Reserved", 8, .one, false, .nil, "", "", 0⟩,
  ⟨"Proprietary ID", 8, .lookup, false, (.must 50), "Init #3", "", 0⟩,
  ⟨"A", 8, .one, false, .nil, "", "", 0⟩,
  ⟨"B", 8, .one, false, .nil, "", "", 0⟩,
  ⟨"C", 8, .one, false, .nil, "", "", 0⟩,
  ⟨"SID", 8, .one, false, .nil, "", "", 0⟩,
  ⟨"Prio", 8, .one, false, .nil, "", "", 0⟩,
  ⟨"Text", 256, .ascii, false, .nil, "", "", 0⟩]⟩

/-- pgn_array.go:2240, index 199. -/
def p199 : Pgn := ⟨"Navico: Product Information", "Navico", 130817, false, 14, 0, [
  ⟨"Manufacturer Code", 11, .manufacturer, false, (.must 275), "Navico", "", 0⟩,
  ⟨"Reserved", 2, .one, false, (.int 0), "", "", 0⟩,
  ⟨"Industry Code", 3, .lookup, false, (.lookup "lookupIndustryCode"), "", "", 0⟩,
  ⟨"Product Code", 16, .integer, false, (.int 0), "", "", 0⟩,
  ⟨"Model", 256, .ascii, false, (.int 0), "", "", 0⟩,
  ⟨"A", 8, .one, false, (.int 0), "", "", 0⟩,
  ⟨"B", 8, .one, false, (.int 0), "", "", 0⟩,
  ⟨"C", 8, .one, false, (.int 0), "", "", 0⟩,
  ⟨"Firmware version", 80, .ascii, false, (.int 0), "", "", 0⟩,
  ⟨"Firmware date", 256, .ascii, false, (.int 0), "", "", 0⟩,
  ⟨"Firmware time", 256, .ascii, false, (.int 0), "", "", 0⟩]⟩

/-- pgn_array.go:2254, index 200. -/
def p200 : Pgn := ⟨"Simnet: Reprogram Data", "Simrad", 130818, false, 8, 0, [
  ⟨"Manufacturer Code", 11, .manufacturer, false, (.must 1857), "Simrad", "", 0⟩,
  ⟨"Reserved", 2, .one, false, (.int 0), "", "", 0⟩,
  ⟨"Industry Code", 3, .lookup, false, (.lookup "lookupIndustryCode"), "", "", 0⟩,
  ⟨"Version", 16, .integer, false, (.int 0), "", "", 0⟩,
  ⟨"Sequence", 16, .integer, false, (.int 0), "", "", 0⟩,
  ⟨"Data", 2040, .binary, false, (.int 0), "", "", 0⟩]⟩

/-- pgn_array.go:2263, index 201. -/
def p201 : Pgn := ⟨"Simnet: Request Reprogram", "Simrad", 130819, false, 8, 0, [
  ⟨"Manufacturer Code", 11, .manufacturer, false, (.must 1857), "Simrad", "", 0⟩,
  ⟨"Reserved", 2, .one, false, (.int 0), "", "", 0⟩,
  ⟨"Industry Code", 3, .lookup, false, (.lookup "lookupIndustryCode"), "", "", 0⟩]⟩

/-- pgn_array.go:2270, index 202. -/
def p202 : Pgn := ⟨"Fusion: Unknown (1)", "Entertainment", 130820, false, 13, 0, [
  ⟨"Manufacturer Code", 11, .manufacturer, false, (.must 419), "Fusion", "", 0⟩,
  ⟨"Reserved", 2, .one, false, (.int 0), "", "", 0⟩,
  ⟨"Industry Code", 3, .lookup, false, (.lookup "lookupIndustryCode"), "", "", 0⟩,
  ⟨"Message ID", 8, .one, false, (.must 1), "", "", 0⟩,
  ⟨"A", 8, .one, false, (.int 0), "", "", 0⟩,
  ⟨"B", 32, .one, false, (.int 0), "", "", 0⟩]⟩

/-- pgn_array.go:2279, index 203. -/
def p203 : Pgn := ⟨"Fusion: Source Name", "Entertainment", 130820, false, 13, 0, [
  ⟨"Manufacturer Code", 11, .manufacturer, false, (.must 419), "Fusion", "", 0⟩,
  ⟨"Reserved", 2, .one, false, (.int 0), "", "", 0⟩,
  ⟨"Industry Code", 3, .lookup, false, (.lookup "lookupIndustryCode"), "", "", 0⟩,
  ⟨"Message ID", 8, .one, false, (.must 2), "", "", 0⟩,
  ⟨"A", 8, .one, false, (.int 0), "", "", 0⟩,
  ⟨"B", 8, .one, false, (.int 0), "", "", 0⟩,
  ⟨"C", 8, .one, false, (.int 0), "", "", 0⟩,
  ⟨"Source", 8, .one, false, (.int 0), "", "", 0⟩,
  ⟨"E", 8, .one, false, (.int 0), "", "", 0⟩,
  ⟨"Name", 40, .stringLZ, false, (.int 0), "", "", 0⟩]⟩

/-- pgn_array.go:2292, index 204. -/
def p204 : Pgn := ⟨"Fusion: Unknown (3)", "Entertainment", 130820, false, 13, 0, [
  ⟨"Manufacturer Code", 11, .manufacturer, false, (.must 419), "Fusion", "", 0⟩,
  ⟨"Reserved", 2, .one, false, (.int 0), "", "", 0⟩,
  ⟨"Industry Code", 3, .lookup, false, (.lookup "lookupIndustryCode"), "", "", 0⟩,
  ⟨"Message ID", 8, .one, false, (.must 3), "", "", 0⟩,
  ⟨"A", 8, .one, false, (.int 0), "", "", 0⟩,
  ⟨"B", 8, .one, false, (.int 0), "", "", 0⟩]⟩

/-- pgn_array.go:2301, index 205. -/
def p205 : Pgn := ⟨"Fusion: Track Number", "Entertainment", 130820, false, 13, 0, [
  ⟨"Manufacturer Code", 11, .manufacturer, false, (.must 419), "Fusion", "", 0⟩,
  ⟨"Reserved", 2, .one, false, (.int 0), "", "", 0⟩,
  ⟨"Industry Code", 3, .lookup, false, (.lookup "lookupIndustryCode"), "", "", 0⟩,
  ⟨"Message ID", 8, .one, false, (.must 4), "", "", 0⟩,
  ⟨"A", 32, .one, false, (.int 0), "", "", 0⟩,
  ⟨"Track Number", 32, .one, false, (.int 0), "", "", 0⟩,
  ⟨"Total Tracks", 32, .one, false, (.int 0), "", "", 0⟩,
  ⟨"Length", 32, (.scale "0.001"), false, (.int 0), "s", "", 0⟩,
  ⟨"E", 32, .one, false, (.int 0), "", "", 0⟩]⟩

/-- pgn_array.go:2313, index 206. -/
def p206 : Pgn := ⟨"Fusion: Track", "Entertainment", 130820, false, 32, 0, [
  ⟨"Manufacturer Code", 11, .manufacturer, false, (.must 419), "Fusion", "", 0⟩,
  ⟨"Reserved", 2, .one, false, (.int 0), "", "", 0⟩,
  ⟨"Industry Code", 3, .lookup, false, (.lookup "lookupIndustryCode"), "", "", 0⟩,
  ⟨"Message ID", 8, .one, false, (.must 5), "", "", 0⟩,
  ⟨"A", 8, .one, false, (.int 0), "", "", 0⟩,
  ⟨"B", 40, .one, false, (.int 0), "", "", 0⟩,
  ⟨"Track", 80, .stringLZ, false, (.int 0), "", "", 0⟩]⟩

/-- pgn_array.go:2323, index 207. -/
def p207 : Pgn := ⟨"Fusion: Artist", "Entertainment", 130820, false, 32, 0, [
  ⟨"Manufacturer Code", 11, .manufacturer, false, (.must 419), "Fusion", "", 0⟩,
  ⟨"Reserved", 2, .one, false, (.int 0), "", "", 0⟩,
  ⟨"Industry Code", 3, .lookup, false, (.lookup "lookupIndustryCode"), "", "", 0⟩,
  ⟨"Message ID", 8, .one, false, (.must 6), "", "", 0⟩,
  ⟨"A", 8, .one, false, (.int 0), "", "", 0⟩,
  ⟨"B", 40, .one, false, (.int 0), "", "", 0⟩,
  ⟨"Artist", 80, .stringLZ, false, (.int 0), "", "", 0⟩]⟩

/-- pgn_array.go:2333, index 208. -/
def p208 : Pgn := ⟨"Fusion: Album", "Entertainment", 130820, false, 32, 0, [
  ⟨"Manufacturer Code", 11, .manufacturer, false, (.must 419), "Fusion", "", 0⟩,
  ⟨"Reserved", 2, .one, false, (.int 0), "", "", 0⟩,
  ⟨"Industry Code", 3, .lookup, false, (.lookup "lookupIndustryCode"), "", "", 0⟩,
  ⟨"Message ID", 8, .one, false, (.must 7), "", "", 0⟩,
  ⟨"A", 8, .one, false, (.int 0), "", "", 0⟩,
  ⟨"B", 40, .one, false, (.int 0), "", "", 0⟩,
  ⟨"Album", 80, .stringLZ, false, (.int 0), "", "", 0⟩]⟩

/-- pgn_array.go:2343, index 209. -/
def p209 : Pgn := ⟨"Fusion: Play Progress", "Entertainment", 130820, false, 9, 0, [
  ⟨"Manufacturer Code", 11, .manufacturer, false, (.must 419), "Fusion", "", 0⟩,
  ⟨"Reserved", 2, .one, false, (.int 0), "", "", 0⟩,
  ⟨"Industry Code", 3, .lookup, false, (.lookup "lookupIndustryCode"), "", "", 0⟩,
  ⟨"Message ID", 8, .one, false, (.must 9), "", "", 0⟩,
  ⟨"A", 8, .one, false, (.int 0), "", "", 0⟩,
  ⟨"B", 8, .one, false, (.int 0), "", "", 0⟩,
  ⟨"Progress", 24, (.scale "0.001"), false, (.text "s"), "", "", 0⟩]⟩

/-- pgn_array.go:2353, index 210. -/
def p210 : Pgn := ⟨"Fusion: AM/FM Station", "Entertainment", 130820, false, 10, 0, [
  ⟨"Manufacturer Code", 11, .manufacturer, false, (.must 419), "Fusion", "", 0⟩,
  ⟨"Reserved", 2, .one, false, (.int 0), "", "", 0⟩,
  ⟨"Industry Code", 3, .lookup, false, (.lookup "lookupIndustryCode"), "", "", 0⟩,
  ⟨"Message ID", 8, .one, false, (.must 11), "", "", 0⟩,
  ⟨"A", 24, .one, false, (.int 0), "", "", 0⟩,
  ⟨"Frequency", 32, .one, false, (.text "Hz"), "", "", 0⟩,
  ⟨"B", 8, .one, false, (.int 0), "", "", 0⟩,
  ⟨"Track", 80, .stringLZ, false, (.int 0), "", "", 0⟩]⟩

/-- pgn_array.go:2364, index 211. -/
def p211 : Pgn := ⟨"Fusion: VHF", "Entertainment", 130820, false, 9, 0, [
  ⟨"Manufacturer Code", 11, .manufacturer, false, (.must 419), "Fusion", "", 0⟩,
  ⟨"Reserved", 2, .one, false, (.int 0), "", "", 0⟩,
  ⟨"Industry Code", 3, .lookup, false, (.lookup "lookupIndustryCode"), "", "", 0⟩,
  ⟨"Message ID", 8, .one, false, (.must 12), "", "", 0⟩,
  ⟨"A", 8, .one, false, (.int 0), "", "", 0⟩,
  ⟨"B", 8, .one, false, (.int 0), "", "", 0⟩,
  ⟨"Channel", 8, .one, false, (.int 0), "", "", 0⟩,
  ⟨"D", 24, .one, false, (.int 0), "", "", 0⟩]⟩

/-- pgn_array.go:2375, index 212. -/
def p212 : Pgn := ⟨"Fusion: Squelch", "Entertainment", 130820, false, 6, 0, [
  ⟨"Manufacturer Code", 11, .manufacturer, false, (.must 419), "Fusion", "", 0⟩,
  ⟨"Reserved", 2, .one, false, (.int 0), "", "", 0⟩,
  ⟨"Industry Code", 3, .lookup, false, (.lookup "lookupIndustryCode"), "", "", 0⟩,
  ⟨"Message ID", 8, .one, false, (.must 13), "", "", 0⟩,
  ⟨"A", 8, .one, false, (.int 0), "", "", 0⟩,
  ⟨"B", 8, .one, false, (.int 0), "", "", 0⟩,
  ⟨"Squelch", 8, .one, false, (.int 0), "", "", 0⟩]⟩

/-- pgn_array.go:2385, index 213. -/
def p213 : Pgn := ⟨"Fusion: Scan", "Entertainment", 130820, false, 6, 0, [
  ⟨"Manufacturer Code", 11, .manufacturer, false, (.must 419), "Fusion", "", 0⟩,
  ⟨"Reserved", 2, .one, false, (.int 0), "", "", 0⟩,
  ⟨"Industry Code", 3, .lookup, false, (.lookup "lookupIndustryCode"), "", "", 0⟩,
  ⟨"Message ID", 8, .one, false, (.must 14), "", "", 0⟩,
  ⟨"A", 8, .one, false, (.int 0), "", "", 0⟩,
  ⟨"B", 8, .one, false, (.int 0), "", "", 0⟩,
  ⟨"Scan", 8, .lookup, false, (.lookup "lookupOffOn"), "", "", 0⟩]⟩

/-- pgn_array.go:2395, index 214. -/
def p214 : Pgn := ⟨"Fusion: Menu Item", "Entertainment", 130820, false, 23, 0, [
  ⟨"Manufacturer Code", 11, .manufacturer, false, (.must 419), "Fusion", "", 0⟩,
  ⟨"Reserved", 2, .one, false, (.int 0), "", "", 0⟩,
  ⟨"Industry Code", 3, .lookup, false, (.lookup "lookupIndustryCode"), "", "", 0⟩,
  ⟨"Message ID", 8, .one, false, (.must 17), "", "", 0⟩,
  ⟨"A", 8, .one, false, (.int 0), "", "", 0⟩,
  ⟨"B", 8, .one, false, (.int 0), "", "", 0⟩,
  ⟨"Line", 8, .one, false, (.int 0), "", "", 0⟩,
  ⟨"E", 8, .one, false, (.int 0), "", "", 0⟩,
  ⟨"F", 8, .one, false, (.int 0), "", "", 0⟩,
  ⟨"G", 8, .one, false, (.int 0), "", "", 0⟩,
  ⟨"H", 8, .one, false, (.int 0), "", "", 0⟩,
  ⟨"I", 8, .one, false, (.int 0), "", "", 0⟩,
  ⟨"Text", 40, .stringLZ, false, (.int 0), "", "", 0⟩]⟩

/-- pgn_array.go:2411, index 215. -/
def p215 : Pgn := ⟨"Fusion: Replay", "Entertainment", 130820, false, 23, 0, [
  ⟨"Manufacturer Code", 11, .manufacturer, false, (.must 419), "Fusion", "", 0⟩,
  ⟨"Reserved", 2, .one, false, (.int 0), "", "", 0⟩,
  ⟨"Industry Code", 3, .lookup, false, (.lookup "lookupIndustryCode"), "", "", 0⟩,
  ⟨"Message ID", 8, .one, false, (.must 19), "", "", 0⟩,
  ⟨"A", 8, .one, false, (.int 0), "", "", 0⟩,
  ⟨"Mode", 8, .lookup, false, (.lookup "lookupFusionReplayMode"), "", "", 0⟩,
  ⟨"C", 24, .one, false, (.int 0), "", "", 0⟩,
  ⟨"D", 8, .one, false, (.int 0), "", "", 0⟩,
  ⟨"E", 8, .one, false, (.int 0), "", "", 0⟩,
  ⟨"Status", 8, .lookup, false, (.lookup "lookupFusionReplayStatus"), "", "", 0⟩,
  ⟨"H", 8, .one, false, (.int 0), "", "", 0⟩,
  ⟨"I", 8, .one, false, (.int 0), "", "", 0⟩,
  ⟨"J", 8, .one, false, (.int 0), "", "", 0⟩]⟩

/-- pgn_array.go:2427, index 216. -/
def p216 : Pgn := ⟨"Fusion: Time", "Entertainment", 130820, false, 23, 0, [
  ⟨"Manufacturer Code", 11, .manufacturer, false, (.must 419), "Fusion", "", 0⟩,
  ⟨"Reserved", 2, .one, false, (.int 0), "", "", 0⟩,
  ⟨"Industry Code", 3, .lookup, false, (.lookup "lookupIndustryCode"), "", "", 0⟩,
  ⟨"Message ID", 8, .one, false, (.must 20), "", "", 0⟩,
  ⟨"A", 8, .one, false, (.int 0), "", "", 0⟩,
  ⟨"Command ID", 8, .one, false, (.must 59), "", "", 0⟩,
  ⟨"C", 24, .one, false, (.int 0), "", "", 0⟩,
  ⟨"Minutes", 8, .one, false, (.int 0), "", "", 0⟩,
  ⟨"Hours", 8, .one, false, (.int 0), "", "", 0⟩,
  ⟨"Format", 1, .lookup, false, (.lookup "lookupFusionTimeFormat"), "", "", 0⟩,
  ⟨"Alarm", 1, .lookup, false, (.lookup "lookupOffOn"), "", "", 0⟩,
  ⟨"I", 6, .one, false, (.int 0), "", "", 0⟩,
  ⟨"J", 8, .one, false, (.int 0), "", "", 0⟩]⟩

/-- pgn_array.go:2443, index 217. -/
def p217 : Pgn := ⟨"Fusion: Repeat", "Entertainment", 130820, false, 5, 0, [
  ⟨"Manufacturer Code", 11, .manufacturer, false, (.must 419), "Fusion", "", 0⟩,
  ⟨"Reserved", 2, .one, false, (.int 0), "", "", 0⟩,
  ⟨"Industry Code", 3, .lookup, false, (.lookup "lookupIndustryCode"), "", "", 0⟩,
  ⟨"Message ID", 8, .one, false, (.must 20), "", "", 0⟩,
  ⟨"A", 8, .one, false, (.int 0), "", "", 0⟩,
  ⟨"Command ID", 8, .one, false, (.must 12), "", "", 0⟩,
  ⟨"C", 24, .one, false, (.int 0), "", "", 0⟩,
  ⟨"Repeat Code", 8, .one, false, (.int 0), "", "", 0⟩,
  ⟨"E", 24, .one, false, (.int 0), "", "", 0⟩]⟩

/-- pgn_array.go:2455, index 218. -/
def p218 : Pgn := ⟨"Fusion: Shuffle", "Entertainment", 130820, false, 5, 0, [
  ⟨"Manufacturer Code", 11, .manufacturer, false, (.must 419), "Fusion", "", 0⟩,
  ⟨"Reserved", 2, .one, false, (.int 0), "", "", 0⟩,
  ⟨"Industry Code", 3, .lookup, false, (.lookup "lookupIndustryCode"), "", "", 0⟩,
  ⟨"Message ID", 8, .one, false, (.must 20), "", "", 0⟩,
  ⟨"A", 8, .one, false, (.int 0), "", "", 0⟩,
  ⟨"Command ID", 8, .one, false, (.must 13), "", "", 0⟩,
  ⟨"C", 24, .one, false, (.int 0), "", "", 0⟩,
  ⟨"Shuffle Code", 8, .one, false, (.int 0), "", "", 0⟩,
  ⟨"E", 24, .one, false, (.int 0), "", "", 0⟩]⟩

/-- pgn_array.go:2467, index 219. -/
def p219 : Pgn := ⟨"Fusion: Mute", "Entertainment", 130820, false, 5, 0, [
  ⟨"Manufacturer Code", 11, .manufacturer, false, (.must 419), "Fusion", "", 0⟩,
  ⟨"Reserved", 2, .one, false, (.int 0), "", "", 0⟩,
  ⟨"Industry Code", 3, .lookup, false, (.lookup "lookupIndustryCode"), "", "", 0⟩,
  ⟨"Message ID", 8, .one, false, (.must 23), "", "", 0⟩,
  ⟨"A", 8, .one, false, (.int 0), "", "", 0⟩,
  ⟨"Mute", 8, .lookup, false, (.lookup "lookupFusionMute"), "", "", 0⟩]⟩

/-- pgn_array.go:2476, index 220. -/
def p220 : Pgn := ⟨"Fusion: Unknown (24)", "Entertainment", 130820, false, 5, 0, [
  ⟨"Manufacturer Code", 11, .manufacturer, false, (.must 419), "Fusion", "", 0⟩,
  ⟨"Reserved", 2, .one, false, (.int 0), "", "", 0⟩,
  ⟨"Industry Code", 3, .lookup, false, (.lookup "lookupIndustryCode"), "", "", 0⟩,
  ⟨"Message ID", 8, .one, false, (.must 24), "", "", 0⟩,
  ⟨"A", 8, .one, false, (.int 0), "", "", 0⟩,
  ⟨"B", 80, .one, false, (.int 0), "", "", 0⟩]⟩

/-- pgn_array.go:2485, index 221. -/
def p221 : Pgn := ⟨"Fusion: Unknown (25)", "Entertainment", 130820, false, 5, 0, [
  ⟨"Manufacturer Code", 11, .manufacturer, false, (.must 419), "Fusion", "", 0⟩,
  ⟨"Reserved", 2, .one, false, (.int 0), "", "", 0⟩,
  ⟨"Industry Code", 3, .lookup, false, (.lookup "lookupIndustryCode"), "", "", 0⟩,
  ⟨"Message ID", 8, .one, false, (.must 25), "", "", 0⟩,
  ⟨"A", 8, .one, false, (.int 0), "", "", 0⟩,
  ⟨"B", 80, .one, false, (.int 0), "", "", 0⟩]⟩

/-- pgn_array.go:2495, index 222. -/
def p222 : Pgn := ⟨"Fusion: Sub Volume", "Entertainment", 130820, false, 8, 0, [
  ⟨"Manufacturer Code", 11, .manufacturer, false, (.must 419), "Fusion", "", 0⟩,
  ⟨"Reserved", 2, .one, false, (.int 0), "", "", 0⟩,
  ⟨"Industry Code", 3, .lookup, false, (.lookup "lookupIndustryCode"), "", "", 0⟩,
  ⟨"Message ID", 8, .one, false, (.must 26), "", "", 0⟩,
  ⟨"A", 8, .one, false, (.int 0), "", "", 0⟩,
  ⟨"Zone 1", 8, .one, false, (.text "vol"), "", "", 0⟩,
  ⟨"Zone 2", 8, .one, false, (.text "vol"), "", "", 0⟩,
  ⟨"Zone 3", 8, .one, false, (.text "vol"), "", "", 0⟩,
  ⟨"Zone 4", 8, .one, false, (.text "vol"), "", "", 0⟩]⟩

/-- pgn_array.go:2508, index 223. -/
def p223 : Pgn := ⟨"Fusion: Tone", "Entertainment", 130820, false, 8, 0, [
  ⟨"Manufacturer Code", 11, .manufacturer, false, (.must 419), "Fusion", "", 0⟩,
  ⟨"Reserved", 2, .one, false, (.int 0), "", "", 0⟩,
  ⟨"Industry Code", 3, .lookup, false, (.lookup "lookupIndustryCode"), "", "", 0⟩,
  ⟨"Message ID", 8, .one, false, (.must 27), "", "", 0⟩,
  ⟨"A", 8, .one, false, (.int 0), "", "", 0⟩,
  ⟨"B", 8, .one, false, (.int 0), "", "", 0⟩,
  ⟨"Bass", 8, .one, true, (.text "vol"), "", "", 0⟩,
  ⟨"Mid", 8, .one, true, (.text "vol"), "", "", 0⟩,
  ⟨"Treble", 8, .one, true, (.text "vol"), "", "", 0⟩]⟩

/-- pgn_array.go:2520, index 224. -/
def p224 : Pgn := ⟨"Fusion: Volume", "Entertainment", 130820, false, 10, 0, [
  ⟨"Manufacturer Code", 11, .manufacturer, false, (.must 419), "Fusion", "", 0⟩,
  ⟨"Reserved", 2, .one, false, (.int 0), "", "", 0⟩,
  ⟨"Industry Code", 3, .lookup, false, (.lookup "lookupIndustryCode"), "", "", 0⟩,
  ⟨"Message ID", 8, .one, false, (.must 29), "", "", 0⟩,
  ⟨"A", 8, .one, false, (.int 0), "", "", 0⟩,
  ⟨"Zone 1", 8, .one, false, (.text "vol"), "", "", 0⟩,
  ⟨"Zone 2", 8, .one, false, (.text "vol"), "", "", 0⟩,
  ⟨"Zone 3", 8, .one, false, (.text "vol"), "", "", 0⟩,
  ⟨"Zone 4", 8, .one, false, (.text "vol"), "", "", 0⟩]⟩

/-- pgn_array.go:2532, index 225. -/
def p225 : Pgn := ⟨"Fusion: Transport", "Entertainment", 130820, false, 5, 0, [
  ⟨"Manufacturer Code", 11, .manufacturer, false, (.must 419), "Fusion", "", 0⟩,
  ⟨"Reserved", 2, .one, false, (.int 0), "", "", 0⟩,
  ⟨"Industry Code", 3, .lookup, false, (.lookup "lookupIndustryCode"), "", "", 0⟩,
  ⟨"Message ID", 8, .one, false, (.must 32), "", "", 0⟩,
  ⟨"A", 8, .one, false, (.int 0), "", "", 0⟩,
  ⟨"Transport", 8, .lookup, false, (.lookup "lookupFusionTransport"), "", "", 0⟩]⟩

/-- pgn_array.go:2541, index 226. -/
def p226 : Pgn := ⟨"Fusion: Stereo ID", "Entertainment", 130820, false, 5, 0, [
  ⟨"Manufacturer Code", 11, .manufacturer, false, (.must 419), "Fusion", "", 0⟩,
  ⟨"Reserved", 2, .one, false, (.int 0), "", "", 0⟩,
  ⟨"Industry Code", 3, .lookup, false, (.lookup "lookupIndustryCode"), "", "", 0⟩,
  ⟨"Message ID", 8, .one, false, (.must 33), "", "", 0⟩,
  ⟨"A", 8, .one, false, (.int 0), "", "", 0⟩,
  ⟨"Name", 80, .stringLZ, false, (.int 0), "", "", 0⟩]⟩

/-- pgn_array.go:2550, index 227. -/
def p227 : Pgn := ⟨"Fusion: Unknown (34)", "Entertainment", 130820, false, 5, 0, [
  ⟨"Manufacturer Code", 11, .manufacturer, false, (.must 419), "Fusion", "", 0⟩,
  ⟨"Reserved", 2, .one, false, (.int 0), "", "", 0⟩,
  ⟨"Industry Code", 3, .lookup, false, (.lookup "lookupIndustryCode"), "", "", 0⟩,
  ⟨"Message ID", 8, .one, false, (.must 34), "", "", 0⟩,
  ⟨"A", 8, .one, false, (.int 0), "", "", 0⟩,
  ⟨"B", 48, .one, false, (.int 0), "", "", 0⟩]⟩

/-- pgn_array.go:2559, index 228. -/
def p228 : Pgn := ⟨"Fusion: SiriusXM Station", "Entertainment", 130820, false, 5, 0, [
  ⟨"Manufacturer Code", 11, .manufacturer, false, (.must 419), "Fusion", "", 0⟩,
  ⟨"Reserved", 2, .one, false, (.int 0), "", "", 0⟩,
  ⟨"Industry Code", 3, .lookup, false, (.lookup "lookupIndustryCode"), "", "", 0⟩,
  ⟨"Message ID", 8, .one, false, (.must 36), "", "", 0⟩,
  ⟨"A", 16, .one, false, (.int 0), "", "", 0⟩,
  ⟨"Channel", 16, .one, false, (.int 0), "", "", 0⟩,
  ⟨"Station", 800, .stringLZ, false, (.int 0), "", "", 0⟩]⟩

/-- pgn_array.go:2569, index 229. -/
def p229 : Pgn := ⟨"Fusion: SiriusXM Track", "Entertainment", 130820, false, 5, 0, [
  ⟨"Manufacturer Code", 11, .manufacturer, false, (.must 419), "Fusion", "", 0⟩,
  ⟨"Reserved", 2, .one, false, (.int 0), "", "", 0⟩,
  ⟨"Industry Code", 3, .lookup, false, (.lookup "lookupIndustryCode"), "", "", 0⟩,
  ⟨"Message ID", 8, .one, false, (.must 37), "", "", 0⟩,
  ⟨"A", 16, .one, false, (.int 0), "", "", 0⟩,
  ⟨"Channel", 16, .one, false, (.int 0), "", "", 0⟩,
  ⟨"Track", 800, .stringLZ, false, (.int 0), "", "", 0⟩]⟩

/-- pgn_array.go:2579, index 230. -/
def p230 : Pgn := ⟨"Fusion: SiriusXM Artist", "Entertainment", 130820, false, 5, 0, [
  ⟨"Manufacturer Code", 11, .manufacturer, false, (.must 419), "Fusion", "", 0⟩,
  ⟨"Reserved", 2, .one, false, (.int 0), "", "", 0⟩,
  ⟨"Industry Code", 3, .lookup, false, (.lookup "lookupIndustryCode"), "", "", 0⟩,
  ⟨"Message ID", 8, .one, false, (.must 38), "", "", 0⟩,
  ⟨"A", 16, .one, false, (.int 0), "", "", 0⟩,
  ⟨"Channel", 16, .one, false, (.int 0), "", "", 0⟩,
  ⟨"Artist", 800, .stringLZ, false, (.int 0), "", "", 0⟩]⟩

/-- pgn_array.go:2589, index 231. -/
def p231 : Pgn := ⟨"Fusion: SiriusXM Channel", "Entertainment", 130820, false, 5, 0, [
  ⟨"Manufacturer Code", 11, .manufacturer, false, (.must 419), "Fusion", "", 0⟩,
  ⟨"Reserved", 2, .one, false, (.int 0), "", "", 0⟩,
  ⟨"Industry Code", 3, .lookup, false, (.lookup "lookupIndustryCode"), "", "", 0⟩,
  ⟨"Message ID", 8, .one, false, (.must 39), "", "", 0⟩,
  ⟨"A", 16, .one, false, (.int 0), "", "", 0⟩,
  ⟨"Channel", 16, .one, false, (.int 0), "", "", 0⟩,
  ⟨"C", 16, .one, false, (.int 0), "", "", 0⟩]⟩

/-- pgn_array.go:2598, index 232. -/
def p232 : Pgn := ⟨"Fusion: SiriusXM Category", "Entertainment", 130820, false, 5, 0, [
  ⟨"Manufacturer Code", 11, .manufacturer, false, (.must 419), "Fusion", "", 0⟩,
  ⟨"Reserved", 2, .one, false, (.int 0), "", "", 0⟩,
  ⟨"Industry Code", 3, .lookup, false, (.lookup "lookupIndustryCode"), "", "", 0⟩,
  ⟨"Message ID", 8, .one, false, (.must 40), "", "", 0⟩,
  ⟨"A", 16, .one, false, (.int 0), "", "", 0⟩,
  ⟨"Channel", 16, .one, false, (.int 0), "", "", 0⟩,
  ⟨"Category", 800, .stringLZ, false, (.int 0), "", "", 0⟩]⟩

/-- pgn_array.go:2608, index 233. -/
def p233 : Pgn := ⟨"Fusion: Unknown (41)", "Entertainment", 130820, false, 5, 0, [
  ⟨"Manufacturer Code", 11, .manufacturer, false, (.must 419), "Fusion", "", 0⟩,
  ⟨"Reserved", 2, .one, false, (.int 0), "", "", 0⟩,
  ⟨"Industry Code", 3, .lookup, false, (.lookup "lookupIndustryCode"), "", "", 0⟩,
  ⟨"Message ID", 8, .one, false, (.must 41), "", "", 0⟩,
  ⟨"Text", 40, .stringLZ, false, (.int 0), "", "", 0⟩]⟩

/-- pgn_array.go:2616, index 234. -/
def p234 : Pgn := ⟨"Fusion: Unknown (44)", "Entertainment", 130820, false, 5, 0, [
  ⟨"Manufacturer Code", 11, .manufacturer, false, (.must 419), "Fusion", "", 0⟩,
  ⟨"Reserved", 2, .one, false, (.int 0), "", "", 0⟩,
  ⟨"Industry Code", 3, .lookup, false, (.lookup "lookupIndustryCode"), "", "", 0⟩,
  ⟨"Message ID", 8, .one, false, (.must 44), "", "", 0⟩,
  ⟨"Text", 40, .stringLZ, false, (.int 0), "", "", 0⟩]⟩

/-- pgn_array.go:2624, index 235. -/
def p235 : Pgn := ⟨"Fusion: Zone Name", "Entertainment", 130820, false, 5, 0, [
  ⟨"Manufacturer Code", 11, .manufacturer, false, (.must 419), "Fusion", "", 0⟩,
  ⟨"Reserved", 2, .one, false, (.int 0), "", "", 0⟩,
  ⟨"Industry Code", 3, .lookup, false, (.lookup "lookupIndustryCode"), "", "", 0⟩,
  ⟨"Message ID", 8, .one, false, (.must 45), "", "", 0⟩,
  ⟨"A", 8, .one, false, (.int 0), "", "", 0⟩,
  ⟨"Zone", 8, .one, false, (.int 0), "", "", 0⟩,
  ⟨"Name", 480, .stringLZ, false, (.int 0), "", "", 0⟩]⟩

/-- pgn_array.go:2634, index 236. -/
def p236 : Pgn := ⟨"Fusion: Unknown (51)", "Entertainment", 130820, false, 8, 0, [
  ⟨"Manufacturer Code", 11, .manufacturer, false, (.must 419), "Fusion", "", 0⟩,
  ⟨"Reserved", 2, .one, false, (.int 0), "", "", 0⟩,
  ⟨"Industry Code", 3, .lookup, false, (.lookup "lookupIndustryCode"), "", "", 0⟩,
  ⟨"Message ID", 8, .one, false, (.int 0), "=51", "", 0⟩,
  ⟨"A", 8, .one, false, (.int 0), "", "", 0⟩,
  ⟨"B", 104, .one, false, (.int 0), "", "", 0⟩]⟩

/-- pgn_array.go:2643, index 237. -/
def p237 : Pgn := ⟨"Fusion: Unknown", "Entertainment", 130820, false, 8, 0, [
  ⟨"Manufacturer Code", 11, .manufacturer, false, (.must 419), "Fusion", "", 0⟩,
  ⟨"Reserved", 2, .one, false, (.int 0), "", "", 0⟩,
  ⟨"Industry Code", 3, .lookup, false, (.lookup "lookupIndustryCode"), "", "", 0⟩,
  ⟨"Message ID", 8, .one, false, (.int 0), "", "", 0⟩]⟩

/-- pgn_array.go:2651, index 238. -/
def p238 : Pgn := ⟨"Simnet: Reprogram Status", "Simrad", 130820, false, 8, 0, [
  ⟨"Manufacturer Code", 11, .manufacturer, false, (.must 1857), "Simrad", "", 0⟩,
  ⟨"Reserved", 2, .one, false, (.int 0), "", "", 0⟩,
  ⟨"Industry Code", 3, .lookup, false, (.lookup "lookupIndustryCode"), "", "", 0⟩,
  ⟨"Reserved", 8, .one, false, (.int 0), "", "", 0⟩,
  ⟨"Status", 8, .one, false, (.int 0), "", "", 0⟩,
  ⟨"Reserved", 24, .one, false, (.int 0), "", "", 0⟩]⟩

/-- pgn_array.go:2661, index 239. -/
def p239 : Pgn := ⟨"Furuno: Unknown", "Furuno", 130821, false, 12, 0, [
  ⟨"Manufacturer Code", 11, .manufacturer, false, (.must 1855), "Furuno", "", 0⟩,
  ⟨"Reserved", 2, .one, false, (.int 0), "", "", 0⟩,
  ⟨"Industry Code", 3, .lookup, false, (.lookup "lookupIndustryCode"), "", "", 0⟩,
  ⟨"SID", 8, .one, false, (.int 0), "", "", 0⟩,
  ⟨"A", 8, .one, false, (.int 0), "", "", 0⟩,
  ⟨"B", 8, .one, false, (.int 0), "", "", 0⟩,
  ⟨"C", 8, .one, false, (.int 0), "", "", 0⟩,
  ⟨"D", 8, .one, false, (.int 0), "", "", 0⟩,
  ⟨"E", 8, .one, false, (.int 0), "", "", 0⟩,
  ⟨"F", 8, .one, false, (.int 0), "", "", 0⟩,
  ⟨"G", 8, .one, false, (.int 0), "", "", 0⟩,
  ⟨"H", 8, .one, false, (.int 0), "", "", 0⟩,
  ⟨"I", 8, .one, false, (.int 0), "", "", 0⟩]⟩

/-- pgn_array.go:2677, index 240. -/
def p240 : Pgn := ⟨"Furuno: Unknown", "Furuno", 130821, false, 12, 0, [
  ⟨"Manufacturer Code", 11, .manufacturer, false, (.must 1855), "Furuno", "", 0⟩,
  ⟨"Reserved", 2, .one, false, (.int 0), "", "", 0⟩,
  ⟨"Industry Code", 3, .lookup, false, (.lookup "lookupIndustryCode"), "", "", 0⟩,
  ⟨"SID", 8, .one, false, (.int 0), "", "", 0⟩,
  ⟨"A", 8, .one, false, (.int 0), "", "", 0⟩,
  ⟨"B", 8, .one, false, (.int 0), "", "", 0⟩,
  ⟨"C", 8, .one, false, (.int 0), "", "", 0⟩,
  ⟨"D", 8, .one, false, (.int 0), "", "", 0⟩,
  ⟨"E", 8, .one, false, (.int 0), "", "", 0⟩,
  ⟨"F", 8, .one, false, (.int 0), "", "", 0⟩,
  ⟨"G", 8, .one, false, (.int 0), "", "", 0⟩,
  ⟨"H", 8, .one, false, (.int 0), "", "", 0⟩,
  ⟨"I", 8, .one, false, (.int 0), "", "", 0⟩]⟩

/-- pgn_array.go:2693, index 241. -/
def p241 : Pgn := ⟨"Simnet: Unknown", "Simrad", 130822, false, 208, 1, [
  ⟨"Manufacturer Code", 11, .manufacturer, false, (.must 1857), "Simrad", "", 0⟩,
  ⟨"Reserved", 2, .one, false, (.int 0), "", "", 0⟩,
  ⟨"Industry Code", 3, .lookup, false, (.lookup "lookupIndustryCode"), "", "", 0⟩,
  ⟨"Data", 104, .binary, false, (.int 0), "", "", 0⟩,
  ⟨"Data", 64, .binary, false, (.int 0), "", "", 0⟩]⟩

/-- pgn_array.go:2701, index 242. -/
def p242 : Pgn := ⟨"Simnet: Unknown", "Simrad", 130824, false, 8, 0, [
  ⟨"Manufacturer Code", 11, .manufacturer, false, (.must 1857), "Simrad", "", 0⟩,
  ⟨"Reserved", 2, .one, false, (.int 0), "", "", 0⟩,
  ⟨"Industry Code", 3, .lookup, false, (.lookup "lookupIndustryCode"), "", "", 0⟩,
  ⟨"A", 8, .one, false, (.int 0), "", "", 0⟩,
  ⟨"B", 8, .one, false, (.int 0), "", "", 0⟩,
  ⟨"C", 8, .one, false, (.int 0), "", "", 0⟩,
  ⟨"D", 8, .one, false, (.int 0), "", "", 0⟩,
  ⟨"E", 8, .one, false, (.int 0), "", "", 0⟩,
  ⟨"F", 8, .one, false, (.int 0), "", "", 0⟩]⟩

/-- pgn_array.go:2714, index 243. -/
def p243 : Pgn := ⟨"Lowrance: unknown", "Lowrance", 130827, false, 10, 0, [
  ⟨"Manufacturer Code", 11, .manufacturer, false, (.must 140), "Lowrance", "", 0⟩,
  ⟨"Reserved", 2, .one, false, (.int 0), "", "", 0⟩,
  ⟨"Industry Code", 3, .lookup, false, (.lookup "lookupIndustryCode"), "", "", 0⟩,
  ⟨"A", 8, .one, false, (.int 0), "", "", 0⟩,
  ⟨"B", 8, .one, false, (.int 0), "", "", 0⟩,
  ⟨"C", 8, .one, false, (.int 0), "", "", 0⟩,
  ⟨"D", 8, .one, false, (.int 0), "", "", 0⟩,
  ⟨"E", 16, .one, false, (.int 0), "", "", 0⟩,
  ⟨"F", 16, .one, false, (.int 0), "", "", 0⟩]⟩

/-- pgn_array.go:2726, index 244. -/
def p244 : Pgn := ⟨"Simnet: Set Serial Number", "Simrad", 130828, false, 8, 0, [
  ⟨"Manufacturer Code", 11, .manufacturer, false, (.must 1857), "Simrad", "", 0⟩,
  ⟨"Reserved", 2, .one, false, (.int 0), "", "", 0⟩,
  ⟨"Industry Code", 3, .lookup, false, (.lookup "lookupIndustryCode"), "", "", 0⟩]⟩

/-- pgn_array.go:2734, index 245. -/
def p245 : Pgn := ⟨"Suzuki: Engine and Storage Device Config", "Suzuki", 130831, false, 8, 0, [
  ⟨"Manufacturer Code", 11, .manufacturer, false, (.int 0), "", "", 0⟩,
  ⟨"Reserved", 2, .one, false, (.int 0), "", "", 0⟩,
  ⟨"Industry Code", 3, .lookup, false, (.lookup "lookupIndustryCode"), "", "", 0⟩]⟩

/-- pgn_array.go:2740, index 246. -/
def p246 : Pgn := ⟨"Simnet: Fuel Used - High Resolution", "Simrad", 130832, false, 8, 0, [
  ⟨"Manufacturer Code", 11, .manufacturer, false, (.must 1857), "Simrad", "", 0⟩,
  ⟨"Reserved", 2, .one, false, (.int 0), "", "", 0⟩,
  ⟨"Industry Code", 3, .lookup, false, (.lookup "lookupIndustryCode"), "", "", 0⟩]⟩

/-- pgn_array.go:2746, index 247. -/
def p247 : Pgn := ⟨"Simnet: Engine and Tank Configuration", "Simrad", 130834, false, 8, 0, [
  ⟨"Manufacturer Code", 11, .manufacturer, false, (.must 1857), "Simrad", "", 0⟩,
  ⟨"Reserved", 2, .one, false, (.int 0), "", "", 0⟩,
  ⟨"Industry Code", 3, .lookup, false, (.lookup "lookupIndustryCode"), "", "", 0⟩]⟩

/-- pgn_array.go:2752, index 248. -/
def p248 : Pgn := ⟨"Simnet: Set Engine and Tank Configuration", "Simrad", 130835, false, 8, 0, [
  ⟨"Manufacturer Code", 11, .manufacturer, false, (.must 1857), "Simrad", "", 0⟩,
  ⟨"Reserved", 2, .one, false, (.int 0), "", "", 0⟩,
  ⟨"Industry Code", 3, .lookup, false, (.lookup "lookupIndustryCode"), "", "", 0⟩]⟩

/-- pgn_array.go:2759, index 249. -/
def p249 : Pgn := ⟨"Simnet: Fluid Level Sensor Configuration", "Simrad", 130836, false, 14, 0, [
  ⟨"Manufacturer Code", 11, .manufacturer, false, (.int 0), "", "", 0⟩,
  ⟨"Reserved", 2, .one, false, (.int 0), "", "", 0⟩,
  ⟨"Industry Code", 3, .lookup, false, (.lookup "lookupIndustryCode"), "", "", 0⟩,
  ⟨"C", 8, .one, false, (.int 0), "", "", 0⟩,
  ⟨"Device", 8, .integer, false, (.int 0), "", "", 0⟩,
  ⟨"Instance", 8, .one, false, (.int 0), "", "", 0⟩,
  ⟨"F", 4, .one, false, (.int 0), "", "", 0⟩,
  ⟨"Tank type", 4, .lookup, false, (.lookup "lookupTankType"), "", "", 0⟩,
  ⟨"Capacity", 32, (.scale "0.1"), false, (.int 0), "", "", 0⟩,
  ⟨"G", 8, .one, false, (.int 0), "", "", 0⟩,
  ⟨"H", 16, .one, true, (.int 0), "", "", 0⟩,
  ⟨"I", 8, .one, true, (.int 0), "", "", 0⟩]⟩

/-- pgn_array.go:2774, index 250. -/
def p250 : Pgn := ⟨"Simnet: Fuel Flow Turbine Configuration", "Simrad", 130837, false, 8, 0, [
  ⟨"Manufacturer Code", 11, .manufacturer, false, (.must 1857), "Simrad", "", 0⟩,
  ⟨"Reserved", 2, .one, false, (.int 0), "", "", 0⟩,
  ⟨"Industry Code", 3, .lookup, false, (.lookup "lookupIndustryCode"), "", "", 0⟩]⟩

/-- pgn_array.go:2780, index 251. -/
def p251 : Pgn := ⟨"Simnet: Fluid Level Warning", "Simrad", 130838, false, 8, 0, [
  ⟨"Manufacturer Code", 11, .manufacturer, false, (.must 1857), "Simrad", "", 0⟩,
  ⟨"Reserved", 2, .one, false, (.int 0), "", "", 0⟩,
  ⟨"Industry Code", 3, .lookup, false, (.lookup "lookupIndustryCode"), "", "", 0⟩]⟩

/-- pgn_array.go:2786, index 252. -/
def p252 : Pgn := ⟨"Simnet: Pressure Sensor Configuration", "Simrad", 130839, false, 8, 0, [
  ⟨"Manufacturer Code", 11, .manufacturer, false, (.must 1857), "Simrad", "", 0⟩,
  ⟨"Reserved", 2, .one, false, (.int 0), "", "", 0⟩,
  ⟨"Industry Code", 3, .lookup, false, (.lookup "lookupIndustryCode"), "", "", 0⟩]⟩

/-- pgn_array.go:2792, index 253. -/
def p253 : Pgn := ⟨"Simnet: Data User Group Configuration", "Simrad", 130840, false, 17, 0, [
  ⟨"Manufacturer Code", 11, .manufacturer, false, (.must 1857), "Simrad", "", 0⟩,
  ⟨"Reserved", 2, .one, false, (.int 0), "", "", 0⟩,
  ⟨"Industry Code", 3, .lookup, false, (.lookup "lookupIndustryCode"), "", "", 0⟩,
  ⟨"Reserved", 8, .binary, false, (.int 0), "", "", 0⟩,
  ⟨"A", 8, .binary, false, (.int 0), "", "", 0⟩,
  ⟨"B", 8, .binary, false, (.int 0), "", "", 0⟩,
  ⟨"C", 8, .binary, false, (.int 0), "", "", 0⟩,
  ⟨"Reserved", 8, .binary, false, (.int 0), "", "", 0⟩,
  ⟨"D", 8, .binary, false, (.int 0), "", "", 0⟩,
  ⟨"Bytes", 64, .binary, false, (.int 0), "", "", 0⟩,
  ⟨"Reserved", 8, .binary, false, (.int 0), "", "", 0⟩]⟩

/-- pgn_array.go:2813, index 254. -/
def p254 : Pgn := ⟨"Simnet: AIS Class B static data (msg 24 Part A)", "Simrad", 130842, false, 29, 0, [
  ⟨"Manufacturer Code", 11, .manufacturer, false, (.lookup "lookupCompanyCode"), "Simrad", "", 0⟩,
  ⟨"Reserved", 2, .one, false, (.int 0), "", "", 0⟩,
  ⟨"Industry Code", 3, .lookup, false, (.lookup "lookupIndustryCode"), "", "", 0⟩,
  ⟨"Message ID", 6, .one, false, (.must 0), "Msg 24 Part A", "", 0⟩,
  ⟨"Repeat indicator", 2, .lookup, false, (.lookup "lookupRepeatIndicator"), "", "", 0⟩,
  ⟨"D", 8, .one, false, (.int 0), "", "", 0⟩,
  ⟨"E", 8, .one, false, (.int 0), "", "", 0⟩,
  ⟨"User ID", 32, .integer, false, (.text "MMSI"), "", "", 0⟩,
  ⟨"Name", 160, .ascii, false, (.int 0), "", "", 0⟩]⟩

/-- pgn_array.go:2825, index 255. -/
def p255 : Pgn := ⟨"Simnet: AIS Class B static data (msg 24 Part B)", "Simrad", 130842, false, 37, 0, [
  ⟨"Manufacturer Code", 11, .manufacturer, false, (.lookup "lookupCompanyCode"), "Simrad", "", 0⟩,
  ⟨"Reserved", 2, .one, false, (.int 0), "", "", 0⟩,
  ⟨"Industry Code", 3, .lookup, false, (.lookup "lookupIndustryCode"), "", "", 0⟩,
  ⟨"Message ID", 6, .one, false, (.must 1), "Msg 24 Part B", "", 0⟩,
  ⟨"Repeat indicator", 2, .lookup, false, (.lookup "lookupRepeatIndicator"), "", "", 0⟩,
  ⟨"D", 8, .one, false, (.int 0), "", "", 0⟩,
  ⟨"E", 8, .one, false, (.int 0), "", "", 0⟩,
  ⟨"User ID", 32, .integer, false, (.text "MMSI"), "", "", 0⟩,
  ⟨"Type of ship", 8, .lookup, false, (.lookup "lookupShipType"), "", "", 0⟩,
  ⟨"Vendor ID", 56, .ascii, false, (.int 0), "", "", 0⟩,
  ⟨"Callsign", 56, .ascii, false, (.int 0), "0=unavailable", "", 0⟩,
  ⟨"Length", 16, (.scale "0.1"), false, (.text "m"), "", "", 0⟩,
  ⟨"Beam", 16, (.scale "0.1"), false, (.text "m"), "", "", 0⟩,
  ⟨"Position reference from Starboard", 16, (.scale "0.1"), false, (.text "m"), "", "", 0⟩,
  ⟨"Position reference from Bow", 16, (.scale "0.1"), false, (.text "m"), "", "", 0⟩,
  ⟨"Mothership User ID", 32, .integer, false, (.text "MMSI"), "sent by daughter vessels", "", 0⟩,
  ⟨"F", 2, .one, false, (.int 0), "", "", 0⟩,
  ⟨"Spare", 6, .integer, false, (.int 0), "0=unavailable", "", 0⟩]⟩

/-- pgn_array.go:2846, index 256. -/
def p256 : Pgn := ⟨"Simnet: Sonar Status, Frequency and DSP Voltage", "Simrad", 130843, false, 8, 0, [
  ⟨"Manufacturer Code", 11, .manufacturer, false, (.must 1857), "Simrad", "", 0⟩,
  ⟨"Reserved", 2, .one, false, (.int 0), "", "", 0⟩,
  ⟨"Industry Code", 3, .lookup, false, (.lookup "lookupIndustryCode"), "", "", 0⟩]⟩

/-- pgn_array.go:2852, index 257. -/
def p257 : Pgn := ⟨"Simnet: Display Group", "Simrad", 130845, false, 11, 0, [
  ⟨"Manufacturer Code", 11, .manufacturer, false, (.must 1857), "Simrad", "", 0⟩,
  ⟨"Reserved", 2, .one, false, (.int 0), "", "", 0⟩,
  ⟨"Industry Code", 3, .lookup, false, (.lookup "lookupIndustryCode"), "", "", 0⟩,
  ⟨"A", 6, .one, false, (.int 0), "", "", 0⟩,
  ⟨"B", 2, .one, false, (.int 0), "", "", 0⟩,
  ⟨"C", 8, .one, false, (.int 0), "", "", 0⟩,
  ⟨"D", 8, .one, false, (.int 0), "", "", 0⟩,
  ⟨"E", 8, .one, false, (.int 0), "", "", 0⟩,
  ⟨"F", 8, .one, false, (.int 0), "", "", 0⟩,
  ⟨"Parameter", 16, .one, false, (.must 31), "Display Group", "", 0⟩,
  ⟨"G", 8, .one, false, (.int 0), "", "", 0⟩,
  ⟨"Value", 8, .one, false, (.int 0), "", "", 0⟩]⟩

/-- pgn_array.go:2867, index 258. -/
def p258 : Pgn := ⟨"Simnet: Backlight Color", "Simrad", 130845, false, 11, 0, [
  ⟨"Manufacturer Code", 11, .manufacturer, false, (.must 1857), "Simrad", "", 0⟩,
  ⟨"Reserved", 2, .one, false, (.int 0), "", "", 0⟩,
  ⟨"Industry Code", 3, .lookup, false, (.lookup "lookupIndustryCode"), "", "", 0⟩,
  ⟨"A", 6, .one, false, (.int 0), "", "", 0⟩,
  ⟨"B", 2, .one, false, (.int 0), "", "", 0⟩,
  ⟨"C", 8, .one, false, (.int 0), "", "", 0⟩,
  ⟨"D", 8, .one, false, (.int 0), "", "", 0⟩,
  ⟨"E", 8, .one, false, (.int 0), "", "", 0⟩,
  ⟨"F", 8, .one, false, (.int 0), "", "", 0⟩,
  ⟨"Parameter", 16, .one, false, (.must 37), "Backlight Color", "", 0⟩,
  ⟨"G", 8, .one, false, (.int 0), "", "", 0⟩,
  ⟨"Value", 8, .one, false, (.int 0), "", "", 0⟩]⟩

/-- pgn_array.go:2882, index 259. -/
def p259 : Pgn := ⟨"Simnet: Data ID", "Simrad", 130845, false, 12, 0, [
  ⟨"Manufacturer Code", 11, .manufacturer, false, (.must 1857), "Simrad", "", 0⟩,
  ⟨"Reserved", 2, .one, false, (.int 0), "", "", 0⟩,
  ⟨"Industry Code", 3, .lookup, false, (.lookup "lookupIndustryCode"), "", "", 0⟩,
  ⟨"A", 6, .one, false, (.int 0), "", "", 0⟩,
  ⟨"B", 2, .one, false, (.int 0), "", "", 0⟩,
  ⟨"C", 8, .one, false, (.int 0), "", "", 0⟩,
  ⟨"D", 8, .one, false, (.int 0), "", "", 0⟩,
  ⟨"E", 8, .one, false, (.int 0), "", "", 0⟩,
  ⟨"F", 8, .one, false, (.int 0), "", "", 0⟩,
  ⟨"Parameter", 16, .one, false, (.must 143), "Data ID", "", 0⟩,
  ⟨"G", 8, .one, false, (.int 0), "", "", 0⟩,
  ⟨"Value", 16, .one, false, (.int 0), "", "", 0⟩]⟩

/-- pgn_array.go:2897, index 260. -/
def p260 : Pgn := ⟨"Simnet: Temporary Data ID", "Simrad", 130845, false, 12, 0, [
  ⟨"Manufacturer Code", 11, .manufacturer, false, (.must 1857), "Simrad", "", 0⟩,
  ⟨"Reserved", 2, .one, false, (.int 0), "", "", 0⟩,
  ⟨"Industry Code", 3, .lookup, false, (.lookup "lookupIndustryCode"), "", "", 0⟩,
  ⟨"A", 6, .one, false, (.int 0), "", "", 0⟩,
  ⟨"B", 2, .one, false, (.int 0), "", "", 0⟩,
  ⟨"C", 8, .one, false, (.int 0), "", "", 0⟩,
  ⟨"D", 8, .one, false, (.int 0), "", "", 0⟩,
  ⟨"E", 8, .one, false, (.int 0), "", "", 0⟩,
  ⟨"F", 8, .one, false, (.int 0), "", "", 0⟩,
  ⟨"Parameter", 16, .one, false, (.int 0), "", "", 0⟩,
  ⟨"G", 8, .one, false, (.int 0), "", "", 0⟩,
  ⟨"Value", 16, .one, false, (.int 0), "", "", 0⟩]⟩

/-- pgn_array.go:2912, index 261. -/
def p261 : Pgn := ⟨"Simnet: Unknown", "Simrad", 130846, false, 19, 0, [
  ⟨"Manufacturer Code", 11, .manufacturer, false, (.must 1857), "Simrad", "", 0⟩,
  ⟨"Reserved", 2, .one, false, (.int 0), "", "", 0⟩,
  ⟨"Industry Code", 3, .lookup, false, (.lookup "lookupIndustryCode"), "", "", 0⟩,
  ⟨"Bytes", 136, .binary, false, (.int 0), "", "", 0⟩]⟩

/-- pgn_array.go:2919, index 262. -/
def p262 : Pgn := ⟨"Simnet: Device Serial", "Navico", 130847, true, 12, 0, [
  ⟨"Manufacturer Code", 11, .manufacturer, false, (.must 275), "Navico", "", 0⟩,
  ⟨"Reserved", 2, .one, false, (.int 0), "", "", 0⟩,
  ⟨"Industry Code", 3, .lookup, false, (.lookup "lookupIndustryCode"), "", "", 0⟩,
  ⟨"Device Serial", 10, .stringLZ, false, (.int 0), "", "", 0⟩]⟩

/-- pgn_array.go:2926, index 263. -/
def p263 : Pgn := ⟨"Simnet: Event Command: Configure", "Simrad", 130850, false, 12, 0, [
  ⟨"Manufacturer Code", 11, .manufacturer, false, (.must 1857), "Simrad", "", 0⟩,
  ⟨"Reserved", 2, .one, false, (.int 0), "", "", 0⟩,
  ⟨"Industry Code", 3, .lookup, false, (.lookup "lookupIndustryCode"), "", "", 0⟩,
  ⟨"Device Address", 8, .one, false, (.int 0), "", "", 0⟩,
  ⟨"Reserved", 16, .notUsed, false, (.int 0), "", "", 0⟩,
  ⟨"B", 8, .one, false, (.int 0), "", "", 0⟩,
  ⟨"C", 8, .one, false, (.int 0), "", "", 0⟩,
  ⟨"D", 8, .one, false, (.int 0), "", "", 0⟩,
  ⟨"Selected", 8, .lookup, false, (.lookup "lookupYesNo"), "", "", 0⟩,
  ⟨"F", 24, .one, false, (.int 0), "", "", 0⟩]⟩

/-- pgn_array.go:2939, index 264. -/
def p264 : Pgn := ⟨"Simnet: Event Command: Alarm?", "Simrad", 130850, false, 12, 0, [
  ⟨"Manufacturer Code", 11, .manufacturer, false, (.must 1857), "Simrad", "", 0⟩,
  ⟨"Reserved", 2, .one, false, (.int 0), "", "", 0⟩,
  ⟨"Industry Code", 3, .lookup, false, (.lookup "lookupIndustryCode"), "", "", 0⟩,
  ⟨"A", 16, .one, false, (.int 0), "", "", 0⟩,
  ⟨"Proprietary ID", 8, .lookup, false, (.must 1), "Alarm command", "", 0⟩,
  ⟨"C", 8, .one, false, (.int 0), "", "", 0⟩,
  ⟨"Alarm", 16, .lookup, false, (.lookup "lookupSimnetAlarm"), "", "", 0⟩,
  ⟨"Message ID", 16, .integer, false, (.int 0), "", "", 0⟩,
  ⟨"F", 8, .one, false, (.int 0), "", "", 0⟩,
  ⟨"G", 8, .one, false, (.int 0), "", "", 0⟩]⟩

/-- pgn_array.go:2977, index 265. -/
def p265 : Pgn := ⟨"Simnet: Event Reply: AP command", "Simrad", 130851, false, 12, 0, [
  ⟨"Manufacturer Code", 11, .manufacturer, false, (.must 1857), "Simrad", "", 0⟩,
  ⟨"Reserved", 2, .one, false, (.int 0), "", "", 0⟩,
  ⟨"Industry Code", 3, .lookup, false, (.lookup "lookupIndustryCode"), "", "", 0⟩,
  ⟨"Proprietary ID", 8, .lookup, false, (.must 2), "AP command", "", 0⟩,
  ⟨"B", 16, .one, false, (.int 0), "", "", 0⟩,
  ⟨"Controlling Device", 8, .one, false, (.int 0), "", "", 0⟩,
  ⟨"Event", 16, .lookup, false, (.lookup "lookupSimnetApEvents"), "", "", 0⟩,
  ⟨"Direction", 8, .lookup, false, (.lookup "lookupSimnetDirection"), "", "", 0⟩,
  ⟨"Angle", 16, (.scale "RES_DEGREES"), false, (.text "deg"), "", "", 0⟩,
  ⟨"G", 8, .one, false, (.int 0), "", "", 0⟩]⟩

/-- pgn_array.go:2990, index 266. -/
def p266 : Pgn := ⟨"Simnet: Alarm Message", "Simrad", 130856, false, 8, 0, [
  ⟨"Manufacturer Code", 11, .manufacturer, false, (.must 1857), "Simrad", "", 0⟩,
  ⟨"Reserved", 2, .one, false, (.int 0), "", "", 0⟩,
  ⟨"Industry Code", 3, .lookup, false, (.lookup "lookupIndustryCode"), "", "", 0⟩,
  ⟨"Message ID", 16, .one, false, (.int 0), "", "", 0⟩,
  ⟨"B", 8, .one, false, (.int 0), "", "", 0⟩,
  ⟨"C", 8, .one, false, (.int 0), "", "", 0⟩,
  ⟨"Text", 2040, .ascii, false, (.int 0), "", "", 0⟩]⟩

/-- pgn_array.go:3000, index 267. -/
def p267 : Pgn := ⟨"Airmar: Additional Weather Data", "Airmar", 130880, false, 9, 0, [
  ⟨"Manufacturer Code", 11, .manufacturer, false, (.must 135), "Airmar", "", 0⟩,
  ⟨"Reserved", 2, .one, false, (.int 0), "", "", 0⟩,
  ⟨"Industry Code", 3, .lookup, false, (.lookup "lookupIndustryCode"), "", "", 0⟩,
  ⟨"Format Code", 8, .one, false, (.int 0), "", "", 0⟩,
  ⟨"Apparent Windchill Temperature", 16, .temperature, false, (.text "K"), "", "", 0⟩,
  ⟨"True Windchill Temperature", 16, .temperature, false, (.text "K"), "", "", 0⟩,
  ⟨"Dewpoint", 16, .temperature, false, (.text "K"), "", "", 0⟩]⟩

/-- pgn_array.go:3010, index 268. -/
def p268 : Pgn := ⟨"Airmar: Heater Control", "Airmar", 130881, false, 9, 0, [
  ⟨"Manufacturer Code", 11, .manufacturer, false, (.must 135), "", "", 0⟩,
  ⟨"Reserved", 2, .one, false, (.int 0), "", "", 0⟩,
  ⟨"Industry Code", 3, .lookup, false, (.lookup "lookupIndustryCode"), "", "", 0⟩,
  ⟨"C", 8, .one, false, (.int 0), "", "", 0⟩,
  ⟨"Plate Temperature", 16, .temperature, false, (.text "K"), "", "", 0⟩,
  ⟨"Air Temperature", 16, .temperature, false, (.text "K"), "", "", 0⟩,
  ⟨"Dewpoint", 16, .temperature, false, (.text "K"), "", "", 0⟩]⟩

/-- pgn_array.go:3020, index 269. -/
def p269 : Pgn := ⟨"Airmar: POST", "Airmar", 130944, false, 8, 0, [
  ⟨"Manufacturer Code", 11, .manufacturer, false, (.must 135), "", "", 0⟩,
  ⟨"Reserved", 2, .one, false, (.int 0), "", "", 0⟩,
  ⟨"Industry Code", 3, .lookup, false, (.lookup "lookupIndustryCode"), "", "", 0⟩,
  ⟨"Control", 4, .lookup, false, (.lookup "lookupAirmarControl"), "", "", 0⟩,
  ⟨"Reserved", 7, .one, false, (.int 0), "", "", 0⟩,
  ⟨"Number of ID/test result pairs to follow", 8, .integer, false, (.int 0), "", "", 0⟩,
  ⟨"Test ID", 8, .lookup, false, (.lookup "lookupAirmarTestId"), "See Airmar docs for table of IDs and failure codes; these lookup values are for DST200", "", 0⟩,
  ⟨"Test result", 8, .lookup, false, .nil, "Values other than 0 are failure codes. See Airmar docs for description.", "", 0⟩]⟩

/-- pgn_array.go:3031, index 270. -/
def p270 : Pgn := ⟨"Actisense: ReInit Main App", "Actisense", 262144, false, 14, 0, [
  ⟨"SID", 8, .one, false, (.int 0), "", "", 0⟩,
  ⟨"Model ID", 16, .integer, false, (.int 0), "", "", 0⟩,
  ⟨"Serial ID", 32, .integer, false, (.int 0), "", "", 0⟩,
  ⟨"Error ID", 32, .integer, true, (.int 0), "", "", 0⟩]⟩

/-- pgn_array.go:3038, index 271. -/
def p271 : Pgn := ⟨"Actisense: Commit to EEPROM", "Actisense", 262145, false, 14, 0, [
  ⟨"SID", 8, .one, false, (.int 0), "", "", 0⟩,
  ⟨"Model ID", 16, .integer, false, (.int 0), "", "", 0⟩,
  ⟨"Serial ID", 32, .integer, false, (.int 0), "", "", 0⟩,
  ⟨"Error ID", 32, .integer, true, (.int 0), "", "", 0⟩]⟩

/-- pgn_array.go:3045, index 272. -/
def p272 : Pgn := ⟨"Actisense: Commit to Flash", "Actisense", 262146, false, 14, 0, [
  ⟨"SID", 8, .one, false, (.int 0), "", "", 0⟩,
  ⟨"Model ID", 16, .integer, false, (.int 0), "", "", 0⟩,
  ⟨"Serial ID", 32, .integer, false, (.int 0), "", "", 0⟩,
  ⟨"Error ID", 32, .integer, true, (.int 0), "", "", 0⟩]⟩

/-- pgn_array.go:3052, index 273. -/
def p273 : Pgn := ⟨"Actisense: Hardware Info", "Actisense", 262160, false, 51, 0, [
  ⟨"SID", 8, .one, false, (.int 0), "", "", 0⟩,
  ⟨"Model ID", 16, .integer, false, (.int 0), "", "", 0⟩,
  ⟨"Serial ID", 32, .integer, false, (.int 0), "", "", 0⟩,
  ⟨"Error ID", 32, .integer, true, (.int 0), "", "", 0⟩,
  ⟨"Bootloader Software Vers", 16, .integer, false, (.int 0), "", "", 0⟩,
  ⟨"Bootloader Timestamp", 32, .time, false, (.int 0), "", "", 0⟩,
  ⟨"App Software Vers", 16, .integer, false, (.int 0), "", "", 0⟩,
  ⟨"App Timestamp", 32, .time, false, (.int 0), "", "", 0⟩,
  ⟨"PCB Version", 16, .integer, false, (.int 0), "", "", 0⟩,
  ⟨"Total Operating Time", 32, .integer, false, (.int 0), "s", "", 0⟩,
  ⟨"Model Sub ID Number", 16, .integer, false, (.int 0), "", "", 0⟩,
  ⟨"Operating Mode", 16, .integer, false, (.int 0), "", "", 0⟩]⟩

/-- pgn_array.go:3067, index 274. -/
def p274 : Pgn := ⟨"Actisense: Operating mode", "Actisense", 262161, false, 13, 0, [
  ⟨"SID", 8, .one, false, (.int 0), "", "", 0⟩,
  ⟨"Model ID", 16, .integer, false, (.int 0), "", "", 0⟩,
  ⟨"Serial ID", 32, .integer, false, (.int 0), "", "", 0⟩,
  ⟨"Error ID", 32, .integer, true, (.int 0), "", "", 0⟩,
  ⟨"Operating Mode", 16, .one, false, (.int 0), "", "", 0⟩]⟩

/-- pgn_array.go:3079, index 275. -/
def p275 : Pgn := ⟨"Actisense: Port Baud Codes", "Actisense", 262162, false, 16, 0, [
  ⟨"SID", 8, .one, false, (.int 0), "", "", 0⟩,
  ⟨"Model ID", 16, .integer, false, (.int 0), "", "", 0⟩,
  ⟨"Serial ID", 32, .integer, false, (.int 0), "", "", 0⟩,
  ⟨"Error ID", 32, .integer, true, (.int 0), "", "", 0⟩,
  ⟨"Channel Count", 8, .one, false, (.int 0), "", "", 0⟩,
  ⟨"CAN Hardware Protocol", 8, .one, false, (.int 0), "", "", 0⟩,
  ⟨"CAN Baud Rate", 8, .lookup, false, (.lookup "lookupActisenseCANBaudCode"), "", "", 0⟩,
  ⟨"UART Hardware Protocol", 8, .one, false, (.int 0), "", "", 0⟩,
  ⟨"UART Baud Rate", 8, .lookup, false, (.lookup "lookupActisenseUARTBaudCode"), "", "", 0⟩]⟩

/-- pgn_array.go:3091, index 276. -/
def p276 : Pgn := ⟨"Actisense: Port P-Codes", "Actisense", 262163, false, 14, 1, [
  ⟨"SID", 8, .one, false, (.int 0), "", "", 0⟩,
  ⟨"Model ID", 16, .integer, false, (.int 0), "", "", 0⟩,
  ⟨"Serial ID", 32, .integer, false, (.int 0), "", "", 0⟩,
  ⟨"Error ID", 32, .integer, true, (.int 0), "", "", 0⟩,
  ⟨"Channel P-Code", 8, .lookup, false, (.lookup "lookupActisensePCode"), "", "", 0⟩]⟩

/-- pgn_array.go:3099, index 277. -/
def p277 : Pgn := ⟨"Actisense: Port Duplicate Delete", "Actisense", 262164, false, 14, 1, [
  ⟨"SID", 8, .one, false, (.int 0), "", "", 0⟩,
  ⟨"Model ID", 16, .integer, false, (.int 0), "", "", 0⟩,
  ⟨"Serial ID", 32, .integer, false, (.int 0), "", "", 0⟩,
  ⟨"Error ID", 32, .integer, true, (.int 0), "", "", 0⟩,
  ⟨"Channel Dup. Del.", 8, .one, false, (.int 0), "", "", 0⟩]⟩

/-- pgn_array.go:3107, index 278. -/
def p278 : Pgn := ⟨"Actisense: Total Time", "Actisense", 262165, false, 15, 0, [
  ⟨"SID", 8, .one, false, (.int 0), "", "", 0⟩,
  ⟨"Model ID", 16, .integer, false, (.int 0), "", "", 0⟩,
  ⟨"Serial ID", 32, .integer, false, (.int 0), "", "", 0⟩,
  ⟨"Error ID", 32, .integer, true, (.int 0), "", "", 0⟩,
  ⟨"Total Time", 32, .one, false, (.int 0), "s", "", 0⟩]⟩

/-- pgn_array.go:3115, index 279. -/
def p279 : Pgn := ⟨"Actisense: Hardware Baud Codes", "Actisense", 262166, false, 15, 0, [
  ⟨"SID", 8, .one, false, (.int 0), "", "", 0⟩,
  ⟨"Model ID", 16, .integer, false, (.int 0), "", "", 0⟩,
  ⟨"Serial ID", 32, .integer, false, (.int 0), "", "", 0⟩,
  ⟨"Error ID", 32, .integer, true, (.int 0), "", "", 0⟩,
  ⟨"Channel Count", 8, .one, false, (.int 0), "", "", 0⟩,
  ⟨"CAN Hardware Protocol", 8, .one, false, (.int 0), "", "", 0⟩,
  ⟨"CAN Baud Rate", 8, .lookup, false, (.lookup "lookupActisenseCANBaudCode"), "", "", 0⟩,
  ⟨"UART Hardware Protocol", 8, .one, false, (.int 0), "", "", 0⟩,
  ⟨"UART Baud Rate", 8, .lookup, false, (.lookup "lookupActisenseUARTBaudCode"), "", "", 0⟩]⟩

/-- pgn_array.go:3127, index 280. -/
def p280 : Pgn := ⟨"Actisense: Supported PGN List", "Actisense", 262208, false, 57, 1, [
  ⟨"SID", 8, .one, false, (.int 0), "", "", 0⟩,
  ⟨"Model ID", 16, .integer, false, (.int 0), "", "", 0⟩,
  ⟨"Serial ID", 32, .integer, false, (.int 0), "", "", 0⟩,
  ⟨"Error ID", 32, .integer, true, (.int 0), "", "", 0⟩,
  ⟨"Data", 256, .binary, false, (.int 0), "", "", 0⟩]⟩

/-- pgn_array.go:3135, index 281. -/
def p281 : Pgn := ⟨"Actisense: Product Info N2K", "Actisense", 262209, false, 57, 1, [
  ⟨"SID", 8, .one, false, (.int 0), "", "", 0⟩,
  ⟨"Model ID", 16, .integer, false, (.int 0), "", "", 0⟩,
  ⟨"Serial ID", 32, .integer, false, (.int 0), "", "", 0⟩,
  ⟨"Error ID", 32, .integer, true, (.int 0), "", "", 0⟩,
  ⟨"Data", 256, .string, false, (.int 0), "", "", 0⟩]⟩

/-- pgn_array.go:3146, index 282. -/
def p282 : Pgn := ⟨"Actisense: CAN Config", "Actisense", 262210, false, 23, 0, [
  ⟨"SID", 8, .one, false, (.int 0), "", "", 0⟩,
  ⟨"Model ID", 16, .integer, false, (.int 0), "", "", 0⟩,
  ⟨"Serial ID", 32, .integer, false, (.int 0), "", "", 0⟩,
  ⟨"Error ID", 32, .integer, true, (.int 0), "", "", 0⟩,
  ⟨"Preferred Address", 8, .one, false, .nil, "", "", 0⟩,
  ⟨"Unique Number", 21, .one, false, .nil, "ISO Identity Number", "", 0⟩,
  ⟨"Manufacturer Code", 11, .lookup, false, (.lookup "lookupCompanyCode"), "", "", 0⟩,
  ⟨"Device Instance Lower", 3, .one, false, .nil, "ISO ECU Instance", "", 0⟩,
  ⟨"Device Instance Upper", 5, .one, false, .nil, "ISO Function Instance", "", 0⟩,
  ⟨"Device Function", 8, .one, false, .nil, "ISO Function", "", 0⟩,
  ⟨"Reserved", 1, .one, false, .nil, "", "", 0⟩,
  ⟨"Device Class", 7, .lookup, false, (.lookup "lookupDeviceClass"), "", "", 0⟩,
  ⟨"System Instance", 4, .one, false, .nil, "ISO Device Class Instance", "", 0⟩,
  ⟨"Industry Code", 3, .lookup, false, (.lookup "lookupIndustryCode"), "", "", 0⟩,
  ⟨"Arbitrary Address Capable", 1, .one, false, .nil, "ISO Self Configurable", "", 0⟩,
  ⟨"New Source Address", 8, .one, false, .nil, "", "", 0⟩,
  ⟨"Previous Address", 8, .one, false, (.int 0), "", "", 0⟩,
  ⟨"Source Address", 8, .one, false, (.int 0), "", "", 0⟩,
  ⟨"Address Valid", 8, .one, false, (.int 0), "", "", 0⟩]⟩

/-- pgn_array.go:3168, index 283. -/
def p283 : Pgn := ⟨"Actisense: CAN Info Field 1", "Actisense", 262211, false, 20, 0, [
  ⟨"SID", 8, .one, false, (.int 0), "", "", 0⟩,
  ⟨"Model ID", 16, .integer, false, (.int 0), "", "", 0⟩,
  ⟨"Serial ID", 32, .integer, false, (.int 0), "", "", 0⟩,
  ⟨"Error ID", 32, .integer, true, (.int 0), "", "", 0⟩,
  ⟨"Info", 2, .stringLZ, false, (.int 0), "", "", 0⟩]⟩

/-- pgn_array.go:3176, index 284. -/
def p284 : Pgn := ⟨"Actisense: CAN Info Field 2", "Actisense", 262212, false, 20, 0, [
  ⟨"SID", 8, .one, false, (.int 0), "", "", 0⟩,
  ⟨"Model ID", 16, .integer, false, (.int 0), "", "", 0⟩,
  ⟨"Serial ID", 32, .integer, false, (.int 0), "", "", 0⟩,
  ⟨"Error ID", 32, .integer, true, (.int 0), "", "", 0⟩,
  ⟨"Info", 2, .stringLZ, false, (.int 0), "", "", 0⟩]⟩

/-- pgn_array.go:3184, index 285. -/
def p285 : Pgn := ⟨"Actisense: CAN Info Field 3", "Actisense", 262213, false, 20, 0, [
  ⟨"SID", 8, .one, false, (.int 0), "", "", 0⟩,
  ⟨"Model ID", 16, .integer, false, (.int 0), "", "", 0⟩,
  ⟨"Serial ID", 32, .integer, false, (.int 0), "", "", 0⟩,
  ⟨"Error ID", 32, .integer, true, (.int 0), "", "", 0⟩,
  ⟨"Info", 2, .stringLZ, false, (.int 0), "", "", 0⟩]⟩

/-- pgn_array.go:3192, index 286. -/
def p286 : Pgn := ⟨"Actisense: RX PGN Status", "Actisense", 262214, false, 20, 1, [
  ⟨"SID", 8, .one, false, (.int 0), "", "", 0⟩,
  ⟨"Model ID", 16, .integer, false, (.int 0), "", "", 0⟩,
  ⟨"Serial ID", 32, .integer, false, (.int 0), "", "", 0⟩,
  ⟨"Error ID", 32, .integer, true, (.int 0), "", "", 0⟩,
  ⟨"PGN", 32, .integer, false, (.int 0), "", "", 0⟩,
  ⟨"Data", 8, .binary, false, (.int 0), "", "", 0⟩]⟩

/-- pgn_array.go:3201, index 287. -/
def p287 : Pgn := ⟨"Actisense: RX PGN Status", "Actisense", 262215, false, 20, 1, [
  ⟨"SID", 8, .one, false, (.int 0), "", "", 0⟩,
  ⟨"Model ID", 16, .integer, false, (.int 0), "", "", 0⟩,
  ⟨"Serial ID", 32, .integer, false, (.int 0), "", "", 0⟩,
  ⟨"Error ID", 32, .integer, true, (.int 0), "", "", 0⟩]⟩

/-- pgn_array.go:3208, index 288. -/
def p288 : Pgn := ⟨"Actisense: RX PGN List", "Actisense", 262216, false, 57, 1, [
  ⟨"SID", 8, .one, false, (.int 0), "", "", 0⟩,
  ⟨"Model ID", 16, .integer, false, (.int 0), "", "", 0⟩,
  ⟨"Serial ID", 32, .integer, false, (.int 0), "", "", 0⟩,
  ⟨"Error ID", 32, .integer, true, (.int 0), "", "", 0⟩,
  ⟨"PGN List Length", 8, .integer, false, (.int 0), "", "", 0⟩,
  ⟨"PGN", 32, .integer, false, (.int 0), "", "", 0⟩]⟩

/-- pgn_array.go:3217, index 289. -/
def p289 : Pgn := ⟨"Actisense: TX PGN List", "Actisense", 262217, false, 57, 1, [
  ⟨"SID", 8, .one, false, (.int 0), "", "", 0⟩,
  ⟨"Model ID", 16, .integer, false, (.int 0), "", "", 0⟩,
  ⟨"Serial ID", 32, .integer, false, (.int 0), "", "", 0⟩,
  ⟨"Error ID", 32, .integer, true, (.int 0), "", "", 0⟩,
  ⟨"PGN List Length", 8, .integer, false, (.int 0), "", "", 0⟩,
  ⟨"PGN", 32, .integer, false, (.int 0), "", "", 0⟩]⟩

/-- pgn_array.go:3226, index 290. -/
def p290 : Pgn := ⟨"Actisense: Clear PGN List", "Actisense", 262218, false, 14, 0, [
  ⟨"SID", 8, .one, false, (.int 0), "", "", 0⟩,
  ⟨"Model ID", 16, .integer, false, (.int 0), "", "", 0⟩,
  ⟨"Serial ID", 32, .integer, false, (.int 0), "", "", 0⟩,
  ⟨"Error ID", 32, .integer, true, (.int 0), "", "", 0⟩,
  ⟨"Cleared List", 8, .integer, false, (.int 0), "", "", 0⟩]⟩

/-- pgn_array.go:3234, index 291. -/
def p291 : Pgn := ⟨"Actisense: RX PGN Status", "Actisense", 262219, false, 20, 1, [
  ⟨"SID", 8, .one, false, (.int 0), "", "", 0⟩,
  ⟨"Model ID", 16, .integer, false, (.int 0), "", "", 0⟩,
  ⟨"Serial ID", 32, .integer, false, (.int 0), "", "", 0⟩,
  ⟨"Error ID", 32, .integer, true, (.int 0), "", "", 0⟩]⟩

/-- pgn_array.go:3241, index 292. -/
def p292 : Pgn := ⟨"Actisense: RX PGN Status", "Actisense", 262220, false, 20, 1, [
  ⟨"SID", 8, .one, false, (.int 0), "", "", 0⟩,
  ⟨"Model ID", 16, .integer, false, (.int 0), "", "", 0⟩,
  ⟨"Serial ID", 32, .integer, false, (.int 0), "", "", 0⟩,
  ⟨"Error ID", 32, .integer, true, (.int 0), "", "", 0⟩]⟩

/-- pgn_array.go:3248, index 293. -/
def p293 : Pgn := ⟨"Actisense: Params PGN Enable List", "Actisense", 262221, false, 12, 1, [
  ⟨"SID", 8, .one, false, (.int 0), "", "", 0⟩,
  ⟨"Model ID", 16, .integer, false, (.int 0), "", "", 0⟩,
  ⟨"Serial ID", 32, .integer, false, (.int 0), "", "", 0⟩,
  ⟨"Error ID", 32, .integer, true, (.int 0), "", "", 0⟩,
  ⟨"Rx Real In Use", 16, .integer, false, (.int 0), "", "", 0⟩,
  ⟨"Rx Max Real", 16, .integer, false, (.int 0), "", "", 0⟩,
  ⟨"Rx Virtual In Use", 16, .integer, false, (.int 0), "", "", 0⟩,
  ⟨"Rx Max Virtual", 16, .integer, false, (.int 0), "", "", 0⟩,
  ⟨"Tx Virtual In Use", 16, .integer, false, (.int 0), "", "", 0⟩,
  ⟨"Tx Max Virtual", 16, .integer, false, (.int 0), "", "", 0⟩,
  ⟨"Synchronized", 16, .binary, false, (.int 0), "", "", 0⟩]⟩

/-- pgn_array.go:3262, index 294. -/
def p294 : Pgn := ⟨"Actisense: Startup status", "Actisense", 262384, false, 15, 0, [
  ⟨"SID", 8, .one, false, (.int 0), "", "", 0⟩,
  ⟨"Model ID", 16, .integer, false, (.int 0), "", "", 0⟩,
  ⟨"Serial ID", 32, .integer, false, (.int 0), "", "", 0⟩,
  ⟨"Error ID", 32, .integer, true, (.int 0), "", "", 0⟩,
  ⟨"Firmware version", 16, (.scale "0.001"), false, (.int 0), "", "", 0⟩,
  ⟨"Reset status", 8, .one, false, (.int 0), "", "", 0⟩,
  ⟨"A", 8, .one, false, (.int 0), "", "", 0⟩]⟩

/-- pgn_array.go:3272, index 295. -/
def p295 : Pgn := ⟨"Actisense: System status", "Actisense", 262386, false, 34, 0, [
  ⟨"SID", 8, .one, false, (.int 0), "", "", 0⟩,
  ⟨"Model ID", 16, .integer, false, (.int 0), "", "", 0⟩,
  ⟨"Serial ID", 32, .integer, false, (.int 0), "", "", 0⟩,
  ⟨"Error ID", 32, .integer, true, (.int 0), "", "", 0⟩,
  ⟨"Indi channel count", 8, .one, false, (.int 0), "", "", 0⟩,
  ⟨"Ch1 Rx Bandwidth", 8, .one, false, (.int 0), "", "", 0⟩,
  ⟨"Ch1 Rx Load", 8, .one, false, (.int 0), "", "", 0⟩,
  ⟨"Ch1 Rx Filtered", 8, .one, false, (.int 0), "", "", 0⟩,
  ⟨"Ch1 Rx Dropped", 8, .one, false, (.int 0), "", "", 0⟩,
  ⟨"Ch1 Tx Bandwidth", 8, .one, false, (.int 0), "", "", 0⟩,
  ⟨"Ch1 Tx Load", 8, .one, false, (.int 0), "", "", 0⟩,
  ⟨"Ch2 Rx Bandwidth", 8, .one, false, (.int 0), "", "", 0⟩,
  ⟨"Ch2 Rx Load", 8, .one, false, (.int 0), "", "", 0⟩,
  ⟨"Ch2 Rx Filtered", 8, .one, false, (.int 0), "", "", 0⟩,
  ⟨"Ch2 Rx Dropped", 8, .one, false, (.int 0), "", "", 0⟩,
  ⟨"Ch2 Tx Bandwidth", 8, .one, false, (.int 0), "", "", 0⟩,
  ⟨"Ch2 Tx Load", 8, .one, false, (.int 0), "", "", 0⟩,
  ⟨"Uni channel count", 8, .one, false, (.int 0), "", "", 0⟩,
  ⟨"Ch1 Bandwidth", 8, .one, false, (.int 0), "", "", 0⟩,
  ⟨"Ch1 Deleted", 8, .one, false, (.int 0), "", "", 0⟩,
  ⟨"Ch1 BufferLoading", 8, .one, false, (.int 0), "", "", 0⟩,
  ⟨"Ch1 PointerLoading", 8, .one, false, (.int 0), "", "", 0⟩,
  ⟨"Ch2 Bandwidth", 8, .one, false, (.int 0), "", "", 0⟩,
  ⟨"Ch2 Deleted", 8, .one, false, (.int 0), "", "", 0⟩,
  ⟨"Ch2 BufferLoading", 8, .one, false, (.int 0), "", "", 0⟩,
  ⟨"Ch2 PointerLoading", 8, .one, false, (.int 0), "", "", 0⟩]⟩

/-- pgn_array.go:3301, index 296. -/
def p296 : Pgn := ⟨"Actisense: Negative ACK", "Actisense", 262388, false, 17, 0, [
  ⟨"SID", 8, .one, false, (.int 0), "", "", 0⟩,
  ⟨"Model ID", 16, .integer, false, (.int 0), "", "", 0⟩,
  ⟨"Serial ID", 32, .integer, false, (.int 0), "", "", 0⟩,
  ⟨"Error ID", 32, .binary, true, (.int 0), "", "", 0⟩,
  ⟨"Data", 32, .binary, false, (.int 0), "", "", 0⟩]⟩

/-- pgn_array.go:99-3308 `PgnList`. -/
def pgnList : List Pgn := [
  p0, p1, p2, p3, p4, p5, p6, p7, p8, p9, p10, p11,
  p12, p13, p14, p15, p16, p17, p18, p19, p20, p21, p22, p23,
  p24, p25, p26, p27, p28, p29, p30, p31, p32, p33, p34, p35,
  p36, p37, p38, p39, p40, p41, p42, p43, p44, p45, p46, p47,
  p48, p49, p50, p51, p52, p53, p54, p55, p56, p57, p58, p59,
  p60, p61, p62, p63, p64, p65, p66, p67, p68, p69, p70, p71,
  p72, p73, p74, p75, p76, p77, p78, p79, p80, p81, p82, p83,
  p84, p85, p86, p87, p88, p89, p90, p91, p92, p93, p94, p95,
  p96, p97, p98, p99, p100, p101, p102, p103, p104, p105, p106, p107,
  p108, p109, p110, p111, p112, p113, p114, p115, p116, p117, p118, p119,
  p120, p121, p122, p123, p124, p125, p126, p127, p128, p129, p130, p131,
  p132, p133, p134, p135, p136, p137, p138, p139, p140, p141, p142, p143,
  p144, p145, p146, p147, p148, p149, p150, p151, p152, p153, p154, p155,
  p156, p157, p158, p159, p160, p161, p162, p163, p164, p165, p166, p167,
  p168, p169, p170, p171, p172, p173, p174, p175, p176, p177, p178, p179,
  p180, p181, p182, p183, p184, p185, p186, p187, p188, p189, p190, p191,
  p192, p193, p194, p195, p196, p197, p198, p199, p200, p201, p202, p203,
  p204, p205, p206, p207, p208, p209, p210, p211, p212, p213, p214, p215,
  p216, p217, p218, p219, p220, p221, p222, p223, p224, p225, p226, p227,
  p228, p229, p230, p231, p232, p233, p234, p235, p236, p237, p238, p239,
  p240, p241, p242, p243, p244, p245, p246, p247, p248, p249, p250, p251,
  p252, p253, p254, p255, p256, p257, p258, p259, p260, p261, p262, p263,
  p264, p265, p266, p267, p268, p269, p270, p271, p272, p273, p274, p275,
  p276, p277, p278, p279, p280, p281, p282, p283, p284, p285, p286, p287,
  p288, p289, p290, p291, p292, p293, p294, p295, p296]

end Argo.Nmea2k.Table
