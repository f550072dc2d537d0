import Verif.Signalk.Model

set_option autoImplicit false

/-! Generated by tools/gen_map.py from map.xml; sentences are never used by the program and omitted. -/

namespace Argo.Signalk.MapTable

open Argo.Signalk

/-- map.xml:3-9 -/
def m0 : Mapping := ⟨bs "~/electric/ac/bus1/phaseC/lineToLineVoltage", [⟨65001, ⟨[], []⟩, bs "0", [], [], [], [], []⟩]⟩

/-- map.xml:10-16 -/
def m1 : Mapping := ⟨bs "~/electric/ac/bus1/phaseC/lineToNeutralVoltage", [⟨65001, ⟨[], []⟩, bs "1", [], [], [], [], []⟩]⟩

/-- map.xml:17-23 -/
def m2 : Mapping := ⟨bs "~/electric/ac/bus1/phaseC/frequency", [⟨65001, ⟨[], []⟩, bs "2", [], [], [], [], []⟩]⟩

/-- map.xml:24-30 -/
def m3 : Mapping := ⟨bs "~/electric/ac/bus1/phaseB/lineToLineVoltage", [⟨65002, ⟨[], []⟩, bs "0", [], [], [], [], []⟩]⟩

/-- map.xml:31-37 -/
def m4 : Mapping := ⟨bs "~/electric/ac/bus1/phaseB/lineToNeutralVoltage", [⟨65002, ⟨[], []⟩, bs "1", [], [], [], [], []⟩]⟩

/-- map.xml:38-44 -/
def m5 : Mapping := ⟨bs "~/electric/ac/bus1/phaseB/frequency", [⟨65002, ⟨[], []⟩, bs "2", [], [], [], [], []⟩]⟩

/-- map.xml:45-51 -/
def m6 : Mapping := ⟨bs "~/electric/ac/bus1/phaseA/lineToLineVoltage", [⟨65003, ⟨[], []⟩, bs "0", [], [], [], [], []⟩]⟩

/-- map.xml:52-58 -/
def m7 : Mapping := ⟨bs "~/electric/ac/bus1/phaseA/lineToNeutralVoltage", [⟨65003, ⟨[], []⟩, bs "1", [], [], [], [], []⟩]⟩

/-- map.xml:59-65 -/
def m8 : Mapping := ⟨bs "~/electric/ac/bus1/phaseA/frequency", [⟨65003, ⟨[], []⟩, bs "2", [], [], [], [], []⟩]⟩

/-- map.xml:66-72 -/
def m9 : Mapping := ⟨bs "~/system/currentTimeSource", [⟨126992, ⟨[], []⟩, bs "1", [], [], [], [], []⟩]⟩

/-- map.xml:73-93 -/
def m10 : Mapping := ⟨bs "~/system/currentTime", [⟨126992, ⟨bs "datetime", [(bs "date", 3), (bs "time", 4)]⟩, [], [], [], [], [], []⟩]⟩

/-- map.xml:94-104 -/
def m11 : Mapping := ⟨bs "~/electric/ac/{instance}/numberOfLines", [⟨127503, ⟨[], []⟩, bs "1", [], [], bs "instance", bs "0", []⟩]⟩

/-- map.xml:105-119 -/
def m12 : Mapping := ⟨bs "~/electric/ac/{instance}/{line}/acceptability", [⟨127503, ⟨[], []⟩, bs "3", bs "line", bs "2", bs "instance", bs "0", []⟩]⟩

/-- map.xml:120-126 -/
def m13 : Mapping := ⟨bs "~/propulsion/speed/waterReferenced", [⟨128259, ⟨[], []⟩, bs "1", [], [], [], [], []⟩]⟩

/-- map.xml:127-133 -/
def m14 : Mapping := ⟨bs "~/propulsion/speed/groundReferenced", [⟨128259, ⟨[], []⟩, bs "2", [], [], [], [], []⟩]⟩

/-- map.xml:134-140 -/
def m15 : Mapping := ⟨bs "~/propulsion/speed/waterReferenceType", [⟨128259, ⟨[], []⟩, bs "3", [], [], [], [], []⟩]⟩

/-- map.xml:141-147 -/
def m16 : Mapping := ⟨bs "~/environment/water/depth", [⟨128267, ⟨[], []⟩, bs "1", [], [], [], [], []⟩]⟩

/-- map.xml:148-154 -/
def m17 : Mapping := ⟨bs "~/environment/water/offset", [⟨128267, ⟨[], []⟩, bs "2", [], [], [], [], []⟩]⟩

/-- map.xml:155-161 -/
def m18 : Mapping := ⟨bs "~/navigation/log/date", [⟨128275, ⟨[], []⟩, bs "0", [], [], [], [], []⟩]⟩

/-- map.xml:162-168 -/
def m19 : Mapping := ⟨bs "~/navigation/log/time", [⟨128275, ⟨[], []⟩, bs "1", [], [], [], [], []⟩]⟩

/-- map.xml:169-175 -/
def m20 : Mapping := ⟨bs "~/navigation/log/log", [⟨128275, ⟨[], []⟩, bs "2", [], [], [], [], []⟩]⟩

/-- map.xml:176-182 -/
def m21 : Mapping := ⟨bs "~/navigation/log/tripLog", [⟨128275, ⟨[], []⟩, bs "3", [], [], [], [], []⟩]⟩

/-- map.xml:183-193 -/
def m22 : Mapping := ⟨bs "~/navigation/position/latitude", [⟨129025, ⟨[], []⟩, bs "0", [], [], [], [], []⟩, ⟨129029, ⟨[], []⟩, bs "3", [], [], [], [], []⟩]⟩

/-- map.xml:194-204 -/
def m23 : Mapping := ⟨bs "~/navigation/position/longitude", [⟨129025, ⟨[], []⟩, bs "1", [], [], [], [], []⟩, ⟨129029, ⟨[], []⟩, bs "4", [], [], [], [], []⟩]⟩

/-- map.xml:205-216 -/
def m24 : Mapping := ⟨bs "~/navigation/courseOverGroundTrue", [⟨129026, ⟨[], []⟩, bs "3", [], [], [], [], [⟨bs "eq", 1, bs "True"⟩]⟩]⟩

/-- map.xml:217-228 -/
def m25 : Mapping := ⟨bs "~/navigation/courseOverGroundMagnetic", [⟨129026, ⟨[], []⟩, bs "3", [], [], [], [], [⟨bs "eq", 1, bs "Magnetic"⟩]⟩]⟩

/-- map.xml:229-235 -/
def m26 : Mapping := ⟨bs "~/navigation/gnss/almanac/desiredMode", [⟨129539, ⟨[], []⟩, bs "1", [], [], [], [], []⟩]⟩

/-- map.xml:236-242 -/
def m27 : Mapping := ⟨bs "~/navigation/gnss/almanac/actualMode", [⟨129539, ⟨[], []⟩, bs "2", [], [], [], [], []⟩]⟩

/-- map.xml:243-249 -/
def m28 : Mapping := ⟨bs "~/navigation/gnss/almanac/hdop", [⟨129539, ⟨[], []⟩, bs "4", [], [], [], [], []⟩]⟩

/-- map.xml:250-256 -/
def m29 : Mapping := ⟨bs "~/navigation/gnss/almanac/vdop", [⟨129539, ⟨[], []⟩, bs "5", [], [], [], [], []⟩]⟩

/-- map.xml:257-263 -/
def m30 : Mapping := ⟨bs "~/navigation/gnss/almanac/tdop", [⟨129539, ⟨[], []⟩, bs "6", [], [], [], [], []⟩]⟩

/-- map.xml:264-270 -/
def m31 : Mapping := ⟨bs "~/navigation/gnss/almanac/mode", [⟨129540, ⟨[], []⟩, bs "1", [], [], [], [], []⟩]⟩

/-- map.xml:271-277 -/
def m32 : Mapping := ⟨bs "~/navigation/gnss/almanac/satellitesInView", [⟨129540, ⟨[], []⟩, bs "3", [], [], [], [], []⟩]⟩

/-- map.xml:278-289 -/
def m33 : Mapping := ⟨bs "~/environment/wind/speedApparent", [⟨130306, ⟨[], []⟩, bs "1", [], [], [], [], [⟨bs "eq", 3, bs "Apparent"⟩]⟩]⟩

/-- map.xml:290-301 -/
def m34 : Mapping := ⟨bs "~/environment/wind/angleApparent", [⟨130306, ⟨[], []⟩, bs "2", [], [], [], [], [⟨bs "eq", 3, bs "Apparent"⟩]⟩]⟩

/-- map.xml:302-308 -/
def m35 : Mapping := ⟨bs "~/environment/waterTemp", [⟨130310, ⟨[], []⟩, bs "1", [], [], [], [], []⟩]⟩

/-- map.xml:309-315 -/
def m36 : Mapping := ⟨bs "~/environment/airTemp", [⟨130310, ⟨[], []⟩, bs "2", [], [], [], [], []⟩]⟩

/-- map.xml:316-326 -/
def m37 : Mapping := ⟨bs "~/environment/airPressure", [⟨130310, ⟨[], []⟩, bs "3", [], [], [], [], []⟩, ⟨130311, ⟨[], []⟩, bs "5", [], [], [], [], []⟩]⟩

/-- map.xml:327-352 -/
def m38 : Mapping := ⟨bs "~/entertainment/nowPlaying/trackName", [⟨130820, ⟨[], []⟩, bs "6", [], [], [], [], [⟨bs "eq", 0, bs "419"⟩, ⟨bs "eq", 2, bs "4"⟩, ⟨bs "eq", 3, bs "5"⟩]⟩]⟩

/-- map.xml:353-369 -/
def m39 : Mapping := ⟨bs "~/vendor/simnet/reprogramStatus", [⟨130820, ⟨[], []⟩, bs "4", [], [], [], [], [⟨bs "eq", 0, bs "1855"⟩, ⟨bs "eq", 2, bs "4"⟩]⟩]⟩

/-- map.xml:370-389 -/
def m40 : Mapping := ⟨bs "~/navigation/headingMagnetic", [⟨127250, ⟨[], []⟩, bs "1", [], [], [], [], [⟨bs "eq", 4, bs "Magnetic"⟩]⟩]⟩

/-- map.xml:390-396 -/
def m41 : Mapping := ⟨bs "~/navigation/rateOfTurn", [⟨127251, ⟨[], []⟩, bs "1", [], [], [], [], []⟩]⟩

/-- map.xml:397-403 -/
def m42 : Mapping := ⟨bs "~/vendor/actisense/operatingMode", [⟨262161, ⟨[], []⟩, bs "4", [], [], [], [], []⟩]⟩

/-- map.xml:404-410 -/
def m43 : Mapping := ⟨bs "~/vendor/actisense/modelId", [⟨262384, ⟨[], []⟩, bs "1", [], [], [], [], []⟩]⟩

/-- map.xml:411-417 -/
def m44 : Mapping := ⟨bs "~/vendor/actisense/serialId", [⟨262384, ⟨[], []⟩, bs "2", [], [], [], [], []⟩]⟩

/-- map.xml:418-424 -/
def m45 : Mapping := ⟨bs "~/vendor/actisense/firmwareVersion", [⟨262384, ⟨[], []⟩, bs "4", [], [], [], [], []⟩]⟩

/-- map.xml:425-431 -/
def m46 : Mapping := ⟨bs "~/vendor/actisense/resetStatus", [⟨262384, ⟨[], []⟩, bs "5", [], [], [], [], []⟩]⟩

/-- map.xml:432-438 -/
def m47 : Mapping := ⟨bs "~/vendor/actisense/channelCount", [⟨262386, ⟨[], []⟩, bs "4", [], [], [], [], []⟩]⟩

/-- map.xml: all mappings in file order. -/
def maps : List Mapping := [
  m0, m1, m2, m3, m4, m5, m6, m7, m8, m9, m10, m11, m12, m13, m14, m15, m16, m17, m18, m19,
  m20, m21, m22, m23, m24, m25, m26, m27, m28, m29, m30, m31, m32, m33, m34, m35, m36, m37,
  m38, m39, m40, m41, m42, m43, m44, m45, m46, m47]

end Argo.Signalk.MapTable
