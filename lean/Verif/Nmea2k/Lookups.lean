import Verif.Nmea2k.Model

set_option autoImplicit false

/-!
# The shipped tables of names

Generated by tools/gen_lookups.py from nmea2k/lookups.go; do not edit.  A Go map literal is the list of its
entries (Go rejects repeated constant keys).
-/

namespace Argo.Nmea2k.Lookups

/-- lookups.go:25-34. -/
def lookupActisenseCANBaudCode : List (Nat × String) := [
  (0, "10,000"), (1, "25,000"), (2, "50,000"), (3, "100,000"), (4, "125,000"), (5, "250,000"), (6, "500,000"),
  (7, "1,000,000")]

/-- lookups.go:36-59. -/
def lookupActisenseUARTBaudCode : List (Nat × String) := [
  (0, "1,200"), (1, "2,400"), (2, "4,800"), (3, "9,600"), (4, "19,200"), (5, "38,400"), (6, "57,600"),
  (7, "115,200"), (8, "230,400"), (9, "460,800"), (10, "921,600"), (11, "Undefined"), (12, "Undefined"),
  (13, "31,250"), (14, "62,500"), (15, "125,000"), (16, "250,000"), (17, "500,000"), (18, "1,000,000"),
  (19, "1,000,000"), (20, "Undefined"), (21, "Undefined")]

/-- lookups.go:61-65. -/
def lookupActisensePCode : List (Nat × String) := [
  (0, "Disabled"), (1, "Enabled"), (2, "Enabled for session")]

/-- lookups.go:67-80. -/
def lookupAlertType : List (Nat × String) := [
  (0, "Reserved"), (1, "Energy Alarm"), (2, "Alarm"), (3, "Reserved"), (4, "Reserved"), (5, "Warning"),
  (6, "Reserved"), (7, "Reserved"), (8, "Caution"), (13, "Reserved"), (14, "Data out of range"),
  (15, "Data not available")]

/-- lookups.go:82-88. -/
def lookupAlertCategory : List (Nat × String) := [
  (0, "Navigational"), (1, "Technical"), (13, "Reserved"), (14, "Data out of range"), (15, "Data not available")]

/-- lookups.go:90-93. -/
def lookupSilenceStatus : List (Nat × String) := [
  (0, "Not temporary status"), (1, "Temporary status")]

/-- lookups.go:95-98. -/
def lookupAcknowledgeStatus : List (Nat × String) := [
  (0, "Not acknowledged"), (1, "Acknowledged")]

/-- lookups.go:100-103. -/
def lookupEscalationStatus : List (Nat × String) := [
  (0, "Not escalated"), (1, "Escalated")]

/-- lookups.go:105-108. -/
def lookupSpeedDirection : List (Nat × String) := [
  (0, "Ahead"), (1, "Astern")]

/-- lookups.go:110-117. -/
def lookupSpeedReference : List (Nat × String) := [
  (0, "Paddle Wheel"), (1, "Pitot Tube"), (2, "Doppler Log"), (3, "Correlation Log"), (4, "Electromagnetic"),
  (253, "Not supported")]

/-- lookups.go:119-122. -/
def lookupSupport : List (Nat × String) := [
  (0, "Not supported"), (1, "Supported")]

/-- lookups.go:124-131. -/
def lookupTriggerCondition : List (Nat × String) := [
  (0, "Manual"), (1, "Auto"), (2, "Test"), (13, "Reserved"), (14, "Data out of range"), (15, "Data not available")]

/-- lookups.go:133-142. -/
def lookupThresholdStatus : List (Nat × String) := [
  (0, "Normal"), (1, "Threshold exceeded"), (2, "Extreme threshold exceeded"), (3, "Low threshold exceeded"),
  (4, "Extreme low threshold exceeded"), (13, "Reserved"), (14, "Data out of range"), (15, "Data not available")]

/-- lookups.go:144-154. -/
def lookupAlertState : List (Nat × String) := [
  (0, "Disabled"), (1, "Normal"), (2, "Active"), (3, "Silenced"), (4, "Acknowleged"), (5, "Awaiting acknowlege"),
  (253, "Reserved"), (254, "Data out of range"), (255, "Data not available")]

/-- lookups.go:156-159. -/
def lookupAisAccuracy : List (Nat × String) := [
  (0, "Low"), (1, "High")]

/-- lookups.go:161-194. -/
def lookupAisAtoNType : List (Nat × String) := [
  (0, "Not specified"), (1, "Reference point"), (2, "RACON"), (3, "Fix structure offshore"), (4, "Reserved"),
  (5, "Light, without sectors"), (6, "Light, with sectors"), (7, "Leading light, front"),
  (8, "Leading light, rear"), (9, "Beacon, cardinal N"), (10, "Beacon, cardinal E"), (11, "Beacon, cardinal S"),
  (12, "Beacon, cardinal W"), (13, "Beacon, port hand"), (14, "Beacon, starboard hand"),
  (15, "Beacon, preferred channel, port hand"), (16, "Beacon, preferred channel, starboard hand"),
  (17, "Beacon, isolated danger"), (18, "Beacon, safe water"), (19, "Beacon, special mark"),
  (20, "Cardinal mark N"), (21, "Cardinal mark E"), (22, "Cardinal mark S"), (23, "Cardinal mark W"),
  (24, "Port hand mark"), (25, "Starboard hand mark"), (26, "Preferred channel, port hand"),
  (27, "Preferred channel, starboard hand"), (28, "Isolated danger"), (29, "Safe water"), (30, "Special mark"),
  (31, "Light vessel/LANBY/Rigs")]

/-- lookups.go:196-199. -/
def lookupAisBand : List (Nat × String) := [
  (0, "top 525 kHz of marine band"), (1, "entire marine band")]

/-- lookups.go:201-204. -/
def lookupAisCommState : List (Nat × String) := [
  (0, "SOTDMA"), (1, "ITDMA")]

/-- lookups.go:206-209. -/
def lookupAisDTE : List (Nat × String) := [
  (0, "Available"), (1, "Not available")]

/-- lookups.go:211-214. -/
def lookupAisMode : List (Nat × String) := [
  (0, "Autonomous"), (1, "Assigned")]

/-- lookups.go:216-219. -/
def lookupAisRAIM : List (Nat × String) := [
  (0, "not in use"), (1, "in use")]

/-- lookups.go:221-228. -/
def lookupAisTransceiver : List (Nat × String) := [
  (0, "Channel A VDL reception"), (1, "Channel B VDL reception"), (2, "Channel A VDL transmission"),
  (3, "Channel B VDL transmission"), (4, "Own information not broadcast"), (5, "Reserved")]

/-- lookups.go:230-233. -/
def lookupAisUnitType : List (Nat × String) := [
  (0, "SOTDMA"), (1, "CS")]

/-- lookups.go:235-238. -/
def lookupAisVersion : List (Nat × String) := [
  (0, "ITU-R M.1371-1"), (1, "ITU-R M.1371-3")]

/-- lookups.go:241-259. -/
def lookupDeviceClass : List (Nat × String) := [
  (0, "Reserved for NMEA 2000 Use"), (10, "System Tools"), (20, "Safety Systems"),
  (25, "Inter/Intranetwork Device"), (30, "Electrical Distribution"), (35, "Electrical Generation"),
  (40, "Steering and Control Surfaces"), (50, "Propulsion"), (60, "Navigation"), (70, "Communication"),
  (75, "Sensor Communication Interface"), (80, "Instrumentation/General Systems (Deprecated)"),
  (85, "External Environment"), (90, "Internal Environment"), (100, "Deck, Cargo and Fishing Equipment"),
  (120, "Display"), (125, "Entertainment")]

/-- lookups.go:261-395. -/
def lookupDeviceFunction : List (Nat × List (Nat × String)) := [
  (0, [
  (0, "Reserved for NMEA 2000 Use")]),
  (10, [
  (130, "Diagnostic"), (140, "Bus Traffic Logger")]),
  (20, [
  (110, "Alarm Enunciator (Deprecated)"), (130, "Emergency Position Indicating Radio Beacon (EPIRB)"),
  (135, "Man Overboard"), (140, "Voyage Data Recorder"), (150, "Camera")]),
  (25, [
  (130, "PC Gateway"), (131, "NMEA 2000 to Analog Gateway"), (132, "Analog to NMEA 2000 Gateway"),
  (135, "NMEA 0183 Gateway"), (140, "Router"), (150, "Bridge"), (160, "Repeater")]),
  (30, [
  (130, "Binary Event Monitor"), (140, "Load Controller"), (141, "AC/DC Input"), (150, "Function Controller")]),
  (35, [
  (140, "Engine"), (141, "DC Generator/Alternator"), (142, "Solar Panel (Solar Array)"),
  (143, "Wind Generator (DC)"), (144, "Fuel Cell"), (145, "Network Power Supply"), (151, "AC Generator"),
  (152, "AC Bus"), (153, "AC Mains (Utility/Shore)"), (160, "Power Converter - Battery Charger"),
  (161, "Power Converter - Battery Charger+Inverter"), (162, "Power Converter - Inverter"),
  (163, "Power Converter - DC"), (170, "Battery"), (180, "Engine Gateway")]),
  (40, [
  (130, "Follow-up Controller"), (140, "Mode Controller"), (150, "Autopilot"), (155, "Rudder"),
  (160, "Heading Sensors (Deprecated)"), (170, "Trim (Tabs)/Interceptors"),
  (180, "Attitude (Pitch, Roll, Yaw) Control")]),
  (50, [
  (130, "Engineroom Monitoring (Deprecated)"), (140, "Engine"), (141, "DC Generator/Alternator"),
  (150, "Engine Controller (Deprecated)"), (151, "AC Generator"), (155, "Motor"), (160, "Engine Gateway"),
  (165, "Transmission"), (170, "Throttle/Shift Control"), (180, "Actuator (Deprecated)"),
  (190, "Gauge Interface (Deprecated)"), (200, "Gauge Large (Deprecated)"), (210, "Gauge Small (Deprecated)")]),
  (60, [
  (130, "Bottom Depth"), (135, "Bottom Depth/Speed"), (140, "Ownship Attitude"), (145, "Ownship Positon (GNSS)"),
  (150, "Ownship Position (Loran C)"), (155, "Speed"), (160, "Turn Rate Indicator (Deprecated)"),
  (170, "Integrated Navigation (Deprecated)"), (175, "Integrated Navigation System"),
  (190, "Navigation Management"), (195, "Automatic Identification System (AIS)"), (200, "Radar"),
  (201, "Infrared Imaging"), (205, "ECDIS (Deprecated)"), (210, "ECS (Deprecated)"),
  (220, "Direction Finder (Deprecated)"), (230, "Voyage Status")]),
  (70, [
  (130, "EPIRB (Deprecated)"), (140, "AIS (Deprecated)"), (150, "DSC (Deprecated)"),
  (160, "Data Receiver/Transmitter"), (170, "Satellite"), (180, "Radio-telephone (MF/HF) (Deprecated)"),
  (190, "Radiotelephone")]),
  (75, [
  (130, "Temperature"), (140, "Pressure"), (150, "Fluid Level"), (160, "Flow"), (170, "Humidity")]),
  (80, [
  (130, "Time/Date Systems (Deprecated)"), (140, "VDR (Deprecated)"),
  (150, "Integrated Instrumentation (Deprecated)"), (160, "General Purpose Displays (Deprecated)"),
  (170, "General Sensor Box (Deprecated)"), (180, "Weather Instruments (Deprecated)"),
  (190, "Transducer/General (Deprecated)"), (200, "NMEA 0183 Converter (Deprecated)")]),
  (85, [
  (130, "Atmospheric"), (160, "Aquatic")]),
  (90, [
  (130, "HVAC")]),
  (100, [
  (130, "Scale (Catch)")]),
  (120, [
  (130, "Display"), (140, "Alarm Enunciator")]),
  (125, [
  (130, "Multimedia Player"), (140, "Multimedia Controller")])]

/-- lookups.go:397-399. -/
def lookupIndustryCode : List (Nat × String) := [
  (4, "Marine")]

/-- lookups.go:401-406. -/
def lookupRepeatIndicator : List (Nat × String) := [
  (0, "Initial"), (1, "First retransmission"), (2, "Second retransmission"), (3, "Final retransmission")]

/-- lookups.go:408-415. -/
def lookupSteeringMode : List (Nat × String) := [
  (0, "Main Steering"), (1, "Non-Followup Device"), (2, "Followup Device"), (3, "Heading Control Standaline"),
  (4, "Heading Control"), (5, "Track Control")]

/-- lookups.go:417-421. -/
def lookupTurnMode : List (Nat × String) := [
  (0, "Rudder Limit Controlled"), (1, "Turn Rate Controlled"), (2, "Radius Controlled")]

/-- lookups.go:423-427. -/
def lookupCommandedRudderDirection : List (Nat × String) := [
  (0, "No Order"), (1, "Move to starboard"), (2, "Move to port")]

/-- lookups.go:429-432. -/
def lookupEngineInstance : List (Nat × String) := [
  (0, "Single Engine or Dual Engine Port"), (1, "Dual Engine Starboard")]

/-- lookups.go:434-439. -/
def lookupGearStatus : List (Nat × String) := [
  (0, "Forward"), (1, "Neutral"), (2, "Reverse"), (3, "Unknown")]

/-- lookups.go:441-444. -/
def lookupPositionAccuracy : List (Nat × String) := [
  (0, "Low"), (1, "High")]

/-- lookups.go:447-503. -/
def lookupShipType : List (Nat × String) := [
  (0, "Unavailable"), (20, "Wing in ground"), (21, "Wing in ground hazard cat A"),
  (22, "Wing in ground hazard cat B"), (23, "Wing in ground hazard cat C"), (24, "Wing in ground hazard cat D"),
  (29, "Wing in ground (no other information)"), (30, "Fishing"), (31, "Towing"),
  (32, "Towing and length exceeds 200m or wider than 25m"), (33, "Engaged in dredging or underwater operations"),
  (34, "Engaged in diving operations"), (35, "Engaged in military operations"), (36, "Sailing"), (37, "Pleasure"),
  (40, "High speed craft"), (41, "High speed craft hazard cat A"), (42, "High speed craft hazard cat B"),
  (43, "High speed craft hazard cat C"), (44, "High speed craft hazard cat D"),
  (49, "High speed craft (no additional information)"), (50, "Pilot vessel"), (51, "SAR"), (52, "Tug"),
  (53, "Port tender"), (54, "Anti-pollution"), (55, "Law enforcement"), (56, "Spare"), (57, "Spare #2"),
  (58, "Medical"), (59, "RR Resolution No.18"), (60, "Passenger ship"), (61, "Passenger ship hazard cat A"),
  (62, "Passenger ship hazard cat B"), (63, "Passenger ship hazard cat C"), (64, "Passenger ship hazard cat D"),
  (69, "Passenger ship (no additional information)"), (70, "Cargo ship"), (71, "Cargo ship hazard cat A"),
  (72, "Cargo ship hazard cat B"), (73, "Cargo ship hazard cat C"), (74, "Cargo ship hazard cat D"),
  (79, "Cargo ship (no additional information)"), (80, "Tanker"), (81, "Tanker hazard cat A"),
  (82, "Tanker hazard cat B"), (83, "Tanker hazard cat C"), (84, "Tanker hazard cat D"),
  (89, "Tanker (no additional information)"), (90, "Other"), (91, "Other hazard cat A"),
  (92, "Other hazard cat B"), (93, "Other hazard cat C"), (94, "Other hazard cat D"),
  (99, "Other (no additional information)")]

/-- lookups.go:505-510. -/
def lookupTimeStamp : List (Nat × String) := [
  (60, "Not available"), (61, "Manual input mode"), (62, "Dead reckoning mode"),
  (63, "Positioning system is inoperative")]

/-- lookups.go:512-522. -/
def lookupGns : List (Nat × String) := [
  (0, "GPS"), (1, "GLONASS"), (2, "GPS+GLONASS"), (3, "GPS+SBAS/WAAS"), (4, "GPS+SBAS/WAAS+GLONASS"),
  (5, "Chayka"), (6, "Integrated"), (7, "Surveyed"), (8, "Galileo")]

/-- lookups.go:524-534. -/
def lookupGnsAis : List (Nat × String) := [
  (0, "Undefined"), (1, "GPS"), (2, "GLONASS"), (3, "GPS+GLONASS"), (4, "Loran-C"), (5, "Chayka"),
  (6, "Integrated"), (7, "Surveyed"), (8, "Galileo")]

/-- lookups.go:536-540. -/
def lookupGnsIntegrity : List (Nat × String) := [
  (0, "No integrity checking"), (1, "Safe"), (2, "Caution")]

/-- lookups.go:542-552. -/
def lookupGnsMethod : List (Nat × String) := [
  (0, "No GNSS"), (1, "GNSS Fix"), (2, "DGNSS Fix"), (3, "Precise GNSS"), (4, "RTK Fixed Integer"),
  (5, "RTK Float"), (6, "Estimated (DR) Mode"), (7, "Manual Input"), (8, "Simulate Mode")]

/-- lookups.go:554-561. -/
def lookupSystemTime : List (Nat × String) := [
  (0, "GPS"), (1, "GLONASS"), (2, "Radio Station"), (3, "Local Cesium clock"), (4, "Local Rubidium clock"),
  (5, "Local Crystal clock")]

/-- lookups.go:563-573. -/
def lookupMagneticVariation : List (Nat × String) := [
  (0, "Manual"), (1, "Automatic Chart"), (2, "Automatic Table"), (3, "Automatic Calculation"), (4, "WMM 2000"),
  (5, "WMM 2005"), (6, "WMM 2010"), (7, "WMM 2015"), (8, "WMM 2020")]

/-- lookups.go:575-578. -/
def lookupNavCalculation : List (Nat × String) := [
  (0, "Great Circle"), (1, "Rhumb Line")]

/-- lookups.go:580-586. -/
def lookupNavMarkType : List (Nat × String) := [
  (0, "Collision"), (1, "Turning point"), (2, "Reference"), (3, "Wheelover"), (4, "Waypoint")]

/-- lookups.go:588-594. -/
def lookupResidualMode : List (Nat × String) := [
  (0, "Autonomous"), (1, "Differential Enhanced"), (2, "Estimated"), (3, "Simulator"), (4, "Manual")]

/-- lookups.go:596-602. -/
def lookupWindReference : List (Nat × String) := [
  (0, "True (ground referenced to North)"), (1, "Magnetic (ground referenced to Magnetic North)"), (2, "Apparent"),
  (3, "True (boat referenced)"), (4, "True (water referenced)")]

/-- lookups.go:604-607. -/
def lookupYesNo : List (Nat × String) := [
  (0, "No"), (1, "Yes")]

/-- lookups.go:609-614. -/
def lookupDirectionReference : List (Nat × String) := [
  (0, "True"), (1, "Magnetic"), (2, "Error"), (3, "Null")]

/-- lookups.go:616-626. -/
def lookupNavStatus : List (Nat × String) := [
  (0, "Under way using engine"), (1, "At anchor"), (2, "Not under command"), (3, "Restricted manoeuverability"),
  (4, "Constrained by her draught"), (5, "Moored"), (6, "Aground"), (7, "Engaged in Fishing"),
  (8, "Under way sailing")]

/-- lookups.go:628-632. -/
def lookupPowerFactor : List (Nat × String) := [
  (0, "Leading"), (1, "Lagging"), (2, "Error")]

/-- lookups.go:634-645. -/
def lookupTemperatureSource : List (Nat × String) := [
  (0, "Sea Temperature"), (1, "Outside Temperature"), (2, "Inside Temperature"), (3, "Engine Room Temperature"),
  (4, "Main Cabin Temperature"), (5, "Live Well Temperature"), (6, "Bait Well Temperature"),
  (7, "Refridgeration Temperature"), (8, "Heating System Temperature"), (9, "Freezer Temperature")]

/-- lookups.go:647-650. -/
def lookupHumidityInstance : List (Nat × String) := [
  (0, "Inside"), (1, "Outside")]

/-- lookups.go:652-658. -/
def lookupPressureSource : List (Nat × String) := [
  (0, "Atmospheric"), (1, "Water"), (2, "Steam"), (3, "Compressed Air"), (4, "Hydraulic")]

/-- lookups.go:660-667. -/
def lookupTankType : List (Nat × String) := [
  (0, "Fuel"), (1, "Water"), (2, "Gray water"), (3, "Live well"), (4, "Oil"), (5, "Black water")]

/-- lookups.go:669-672. -/
def lookupTideTendency : List (Nat × String) := [
  (0, "Falling"), (1, "Rising")]

/-- lookups.go:674-679. -/
def lookupIsoAckResults : List (Nat × String) := [
  (0, "ACK"), (1, "NAK"), (2, "Access Denied"), (3, "Address Busy")]

/-- lookups.go:681-686. -/
def lookupWaveform : List (Nat × String) := [
  (0, "Sine Wave"), (1, "Modified Sine Wave"), (6, "Error"), (7, "Data Not Available")]

/-- lookups.go:688-691. -/
def lookupOffOn : List (Nat × String) := [
  (0, "Off"), (1, "On")]

/-- lookups.go:693-696. -/
def lookupStandbyOn : List (Nat × String) := [
  (0, "Standby"), (1, "On")]

/-- lookups.go:698-703. -/
def lookupAcceptability : List (Nat × String) := [
  (0, "Bad Level"), (1, "Bad Frequency"), (2, "Being Qualified"), (3, "Good")]

/-- lookups.go:705-710. -/
def lookupTrackStatus : List (Nat × String) := [
  (0, "Cancelled"), (1, "Acquiring"), (2, "Tracking"), (3, "Lost")]

/-- lookups.go:712-715. -/
def lookupTargetAcquisition : List (Nat × String) := [
  (0, "Manual"), (1, "Automatic")]

/-- lookups.go:717-722. -/
def lookupLine : List (Nat × String) := [
  (0, "Line 1"), (1, "Line 2"), (2, "Line 3"), (3, "Reserved")]

/-- lookups.go:724-727. -/
def lookupFunctionCode : List (Nat × String) := [
  (0, "Transmit PGN List"), (1, "Receive PGN List")]

/-- lookups.go:729-737. -/
def lookupGnssMode : List (Nat × String) := [
  (0, "1D"), (1, "2D"), (2, "3D"), (3, "Auto"), (4, "Reserved"), (5, "Reserved"), (6, "Error")]

/-- lookups.go:739-743. -/
def lookupDGnssMode : List (Nat × String) := [
  (0, "no SBAS"), (1, "SBAS"), (3, "SBAS")]

/-- lookups.go:745-748. -/
def lookupGnssAntenna : List (Nat × String) := [
  (0, "use last 3D height"), (1, "Use antenna altitude")]

/-- lookups.go:750-752. -/
def lookupGnssSatMode : List (Nat × String) := [
  (3, "Range residuals used to calculate position")]

/-- lookups.go:754-761. -/
def lookupGnssSatStatus : List (Nat × String) := [
  (0, "Not tracked"), (1, "Tracked"), (2, "Used"), (3, "Not tracked+Diff"), (4, "Tracked+Diff"), (5, "Used+Diff")]

/-- lookups.go:763-767. -/
def lookupAirmarBootState : List (Nat × String) := [
  (0, "In Startup Monitor"), (1, "Running Bootloader"), (2, "Running Application")]

/-- lookups.go:769-776. -/
def lookupAirmarCalibrateFunction : List (Nat × String) := [
  (0, "Normal/cancel calibration"), (1, "Enter calibration mode"), (2, "Reset calibration to 0"), (3, "Verify"),
  (4, "Reset compass to defaults"), (5, "Reset damping to defaults")]

/-- lookups.go:778-785. -/
def lookupAirmarCalibrationStatus : List (Nat × String) := [
  (0, "Queried"), (1, "Passed"), (2, "Failed - timeout"), (3, "Failed - tilt error"), (4, "Failed - other"),
  (5, "In progress")]

/-- lookups.go:787-789. -/
def lookupAirmarFormatCode : List (Nat × String) := [
  (1, "Format Code 1")]

/-- lookups.go:791-795. -/
def lookupAirmarAccessLevel : List (Nat × String) := [
  (0, "Locked"), (1, "Unlocked Level 1"), (2, "Unlocked Level 2")]

/-- lookups.go:797-800. -/
def lookupAirmarCogSubstitute : List (Nat × String) := [
  (0, "Use HDG only"), (1, "Allow COG to replace HDG")]

/-- lookups.go:802-805. -/
def lookupAirmarControl : List (Nat × String) := [
  (0, "Report previous values"), (1, "Generate new values")]

/-- lookups.go:807-809. -/
def lookupAirmarDepthQuality : List (Nat × String) := [
  (0, "No depth lock")]

/-- lookups.go:811-815. -/
def lookupAirmarTempInstance : List (Nat × String) := [
  (0, "Device Sensor"), (1, "Onboard Water Sensor"), (2, "Optional Water Sensor")]

/-- lookups.go:817-820. -/
def lookupAirmarSpeedFilter : List (Nat × String) := [
  (0, "No filter"), (1, "Basic IIR filter")]

/-- lookups.go:822-825. -/
def lookupAirmarTempFilter : List (Nat × String) := [
  (0, "No filter"), (1, "Basic IIR filter")]

/-- lookups.go:827-830. -/
def lookupAirmarTransmissionInterval : List (Nat × String) := [
  (0, "Measure Interval"), (1, "Requested by user")]

/-- lookups.go:832-841. -/
def lookupAirmarTestId : List (Nat × String) := [
  (1, "Format Code"), (2, "Factory EEPROM"), (3, "User EEPROM"), (4, "Water Temp Sensor"),
  (5, "Sonar Transceiver"), (6, "Speed sensor"), (7, "Internal temperature sensor"), (8, "Battery voltage sensor")]

/-- lookups.go:843-846. -/
def lookupSonicHubControl : List (Nat × String) := [
  (0, "Set"), (128, "Ack")]

/-- lookups.go:848-856. -/
def lookupSonicHubSource : List (Nat × String) := [
  (0, "AM"), (1, "FM"), (2, "iPod"), (3, "USB"), (4, "AUX"), (5, "AUX 2"), (6, "Mic")]

/-- lookups.go:858-862. -/
def lookupSonicHubTuning : List (Nat × String) := [
  (1, "Seeking Up"), (2, "Tuned"), (3, "Seeking Down")]

/-- lookups.go:864-867. -/
def lookupSonicHubMute : List (Nat × String) := [
  (1, "Mute On"), (2, "Mute Off")]

/-- lookups.go:869-873. -/
def lookupSonicHubPlaylist : List (Nat × String) := [
  (1, "Report"), (4, "Next Song"), (6, "Previous Song")]

/-- lookups.go:875-879. -/
def lookupSonicHubZone : List (Nat × String) := [
  (0, "Zone 1"), (1, "Zone 2"), (2, "Zone 3")]

/-- lookups.go:882-1050. -/
def lookupCompanyCode : List (Nat × String) := [
  (199, "Actia Corporation"), (273, "Actisense"), (578, "Advansea"), (735, "AEM Power"),
  (215, "Aetna Engineering/Fireboy-Xintex"), (135, "Airmar"), (459, "Alltek Marine Electronics Group"),
  (274, "Amphenol LTW Technology"), (502, "Attwood Marine"), (600, "Aquatic AV"), (614, "Arlit Technologies"),
  (905, "ASA Electronics"), (715, "Autonnic"), (605, "Aventics GmBH"), (381, "B&G"), (637, "Bavaria Yachts"),
  (185, "Beede Electrical"), (116, "BEP Marine"), (295, "BEP Marine"), (396, "Beyond Measure"),
  (802, "BJ Technologies"), (969, "Blue Seas"), (148, "Blue Water Data"), (811, "Blue Water Desalination"),
  (341, "Böning Automationstechnologie GmbH"), (795, "Broyda Industries"), (796, "Canadian Automotive"),
  (394, "Capi 2"), (176, "Carling Technologies"), (481, "Chetco Digital Instruments"), (773, "Clarion US"),
  (286, "Coelmo Srl Italy"), (438, "Comar Systems Limited"), (404, "Com Nav"), (968, "Cox Powertrain"),
  (165, "CPac Systems AB"), (440, "Cummins"), (743, "DaeMyung"), (868, "Data Panel Corp"), (329, "Dief"),
  (437, "Digital Yacht Ltd"), (201, "Disenos Y Technologia"), (211, "DNA Group, Inc"), (930, "Ecotronix"),
  (426, "Egersund Marine Electronics AS"), (373, "Electronic Design"), (427, "Em-Trak Marine Electronics Ltd"),
  (224, "EMMI Network"), (304, "Empirbus"), (243, "eRide"), (163, "Evinrude/BRP Bombardier"),
  (1863, "Faria Instruments"), (844, "Fell Marine"), (356, "Fischer Panda"), (815, "FLIR"),
  (192, "Floscan Instrument Co Inc"), (1855, "Furuno USA"), (419, "Fusion"), (78, "FW Murphy"), (229, "Garmin"),
  (803, "Gill Sensors"), (378, "Glendinning"), (475, "GME / Standard Communications Pty"), (272, "Groco"),
  (283, "Hamilton Jet"), (88, "Hemisphere GPS"), (776, "HMI Systems"), (257, "Honda Motor Company"),
  (467, "Hummingbird Marine Electronics"), (476, "Hummingbird Marine Electronics"), (315, "ICOM"),
  (606, "Intellian"), (1853, "Japan Radio Co"), (704, "JL Audio"), (385, "Johnson Outdoors Marine Electronics"),
  (85, "Kohler"), (345, "Korea Maritime University"), (644, "KUS Manufacturer"), (1859, "Kvasar AB"), (579, "KVH"),
  (890, "L3 Technologies"), (499, "LCJ Capteurs"), (1858, "Litton"), (400, "Livorsi Marine"),
  (140, "Lowrance Electronics"), (798, "Lumishore"), (739, "LxNav"), (137, "Maretron"),
  (571, "Marinecraft (South Korea)"), (909, "Marines Co (South Korea)"), (510, "Marinesoft Co LTD"),
  (355, "Mastervolt"), (307, "MBW Technologies"), (573, "McMurdo Group / Orolia Ltd"), (144, "Mercury Marine"),
  (1860, "MMP"), (198, "Mystic Valley Communications"), (529, "National Instruments"),
  (147, "Nautibus Electronic GmbH"), (911, "Nautic-On"), (275, "Navico"), (1852, "Navionics"), (503, "Naviop"),
  (896, "Nexfour Solutions"), (193, "Nobeltec"), (517, "Noland"), (374, "Northern Lights"), (1854, "Northstar"),
  (305, "Novatel"), (478, "Ocean Sat BV"), (777, "Ocean Signal"), (847, "Oceanvolt"), (161, "Offshore Systems UK"),
  (532, "Onwa Marine"), (451, "Parker Hannifin"), (781, "Poly Planar"), (862, "Prospec"), (328, "Qwerty"),
  (1851, "Raymarine, Inc"), (734, "REAP Systems"), (894, "Rhodan Marine Systems"), (370, "Rolls Royce Marine"),
  (384, "Rose Point Navigation Systems"), (235, "SailorMade/Tetra"), (612, "SamwonIT"),
  (460, "San Giorgio S.E.I.N. srl"), (580, "San Jose Technologies"), (1862, "Sanshin Industries / Yamaha"),
  (471, "Sea Cross Marine AB"), (778, "Seekeeper"), (285, "Sea Recovery"), (658, "Shenzhen Jiuzhou Communication"),
  (595, "Ship Module / Customware"), (470, "Si-tex"), (1857, "Simrad"), (306, "Sleipner Motor AS"),
  (421, "Standard Horizon"), (799, "Still Water Designs and Audio"), (586, "Suzuki Motor Corporation"),
  (838, "TeamSurv"), (1850, "Teleflex"), (351, "Thrane and Thrane"), (797, "Tides Marine"),
  (962, "Timbolier Industries"), (431, "Tohatsu Co JP"), (518, "Transas USA"), (1856, "Trimble"),
  (422, "True Heading"), (80, "Twin Disc"), (824, "Undheim Systems"), (591, "USCG"),
  (443, "VDO / Continental Corporation"), (1861, "Vector Cantech"), (466, "Veethree"), (504, "Vesper Marine"),
  (358, "Victron"), (174, "Volvo Penta"), (493, "Watcheye"), (154, "Westerbeke Corp"), (744, "Woosung"),
  (168, "Xantrex Technology"), (583, "Yacht Control"), (717, "Yacht Devices"), (233, "Yacht Monitoring Solutions"),
  (172, "Yanmar"), (228, "ZF Marine Electronics"), (100, "ZZZ Testing")]

/-- lookups.go:1052-1054. -/
def lookupPriorityLevel : List (Nat × String) := [
  (8, "Leave priority unchanged")]

/-- lookups.go:1056-1068. -/
def lookupSimnetBacklightLevel : List (Nat × String) := [
  (1, "Day Mode"), (4, "Night Mode"), (11, "Level 1"), (22, "Level 2"), (33, "Level 3"), (44, "Level 4"),
  (55, "Level 5"), (66, "Level 6"), (77, "Level 7"), (88, "Level 8"), (99, "Level 9")]

/-- lookups.go:1070-1077. -/
def lookupSimnetApEvents : List (Nat × String) := [
  (6, "Standby"), (9, "Auto mode"), (10, "Nav mode"), (13, "Non Follow Up mode"), (15, "Wind mode"),
  (26, "Change Course")]

/-- lookups.go:1079-1084. -/
def lookupSimnetDirection : List (Nat × String) := [
  (2, "Port"), (3, "Starboard"), (4, "Left rudder (port)"), (5, "Right rudder (starboard)")]

/-- lookups.go:1086-1089. -/
def lookupSimnetAlarm : List (Nat × String) := [
  (56, "Clear"), (57, "Raise")]

/-- lookups.go:1091-1094. -/
def lookupFusionMute : List (Nat × String) := [
  (1, "Muted"), (2, "Not muted")]

/-- lookups.go:1096-1098. -/
def lookupFusionTransport : List (Nat × String) := [
  (1, "Paused")]

/-- lookups.go:1100-1103. -/
def lookupFusionTimeFormat : List (Nat × String) := [
  (0, "12h"), (1, "24h")]

/-- lookups.go:1105-1110. -/
def lookupFusionReplayMode : List (Nat × String) := [
  (9, "USB repeat"), (10, "USB shuffle"), (12, "iPod repeat"), (13, "iPod shuffle")]

/-- lookups.go:1112-1116. -/
def lookupFusionReplayStatus : List (Nat × String) := [
  (0, "Off"), (1, "One/Track"), (2, "All/Album")]

/-- lookups.go: all tables of one key. -/
def tables : List (String × List (Nat × String)) := [
  ("lookupActisenseCANBaudCode", lookupActisenseCANBaudCode),
  ("lookupActisenseUARTBaudCode", lookupActisenseUARTBaudCode), ("lookupActisensePCode", lookupActisensePCode),
  ("lookupAlertType", lookupAlertType), ("lookupAlertCategory", lookupAlertCategory),
  ("lookupSilenceStatus", lookupSilenceStatus), ("lookupAcknowledgeStatus", lookupAcknowledgeStatus),
  ("lookupEscalationStatus", lookupEscalationStatus), ("lookupSpeedDirection", lookupSpeedDirection),
  ("lookupSpeedReference", lookupSpeedReference), ("lookupSupport", lookupSupport),
  ("lookupTriggerCondition", lookupTriggerCondition), ("lookupThresholdStatus", lookupThresholdStatus),
  ("lookupAlertState", lookupAlertState), ("lookupAisAccuracy", lookupAisAccuracy),
  ("lookupAisAtoNType", lookupAisAtoNType), ("lookupAisBand", lookupAisBand),
  ("lookupAisCommState", lookupAisCommState), ("lookupAisDTE", lookupAisDTE), ("lookupAisMode", lookupAisMode),
  ("lookupAisRAIM", lookupAisRAIM), ("lookupAisTransceiver", lookupAisTransceiver),
  ("lookupAisUnitType", lookupAisUnitType), ("lookupAisVersion", lookupAisVersion),
  ("lookupDeviceClass", lookupDeviceClass), ("lookupIndustryCode", lookupIndustryCode),
  ("lookupRepeatIndicator", lookupRepeatIndicator), ("lookupSteeringMode", lookupSteeringMode),
  ("lookupTurnMode", lookupTurnMode), ("lookupCommandedRudderDirection", lookupCommandedRudderDirection),
  ("lookupEngineInstance", lookupEngineInstance), ("lookupGearStatus", lookupGearStatus),
  ("lookupPositionAccuracy", lookupPositionAccuracy), ("lookupShipType", lookupShipType),
  ("lookupTimeStamp", lookupTimeStamp), ("lookupGns", lookupGns), ("lookupGnsAis", lookupGnsAis),
  ("lookupGnsIntegrity", lookupGnsIntegrity), ("lookupGnsMethod", lookupGnsMethod),
  ("lookupSystemTime", lookupSystemTime), ("lookupMagneticVariation", lookupMagneticVariation),
  ("lookupNavCalculation", lookupNavCalculation), ("lookupNavMarkType", lookupNavMarkType),
  ("lookupResidualMode", lookupResidualMode), ("lookupWindReference", lookupWindReference),
  ("lookupYesNo", lookupYesNo), ("lookupDirectionReference", lookupDirectionReference),
  ("lookupNavStatus", lookupNavStatus), ("lookupPowerFactor", lookupPowerFactor),
  ("lookupTemperatureSource", lookupTemperatureSource), ("lookupHumidityInstance", lookupHumidityInstance),
  ("lookupPressureSource", lookupPressureSource), ("lookupTankType", lookupTankType),
  ("lookupTideTendency", lookupTideTendency), ("lookupIsoAckResults", lookupIsoAckResults),
  ("lookupWaveform", lookupWaveform), ("lookupOffOn", lookupOffOn), ("lookupStandbyOn", lookupStandbyOn),
  ("lookupAcceptability", lookupAcceptability), ("lookupTrackStatus", lookupTrackStatus),
  ("lookupTargetAcquisition", lookupTargetAcquisition), ("lookupLine", lookupLine),
  ("lookupFunctionCode", lookupFunctionCode), ("lookupGnssMode", lookupGnssMode),
  ("lookupDGnssMode", lookupDGnssMode), ("lookupGnssAntenna", lookupGnssAntenna),
  ("lookupGnssSatMode", lookupGnssSatMode), ("lookupGnssSatStatus", lookupGnssSatStatus),
  ("lookupAirmarBootState", lookupAirmarBootState),
  ("lookupAirmarCalibrateFunction", lookupAirmarCalibrateFunction),
  ("lookupAirmarCalibrationStatus", lookupAirmarCalibrationStatus),
  ("lookupAirmarFormatCode", lookupAirmarFormatCode), ("lookupAirmarAccessLevel", lookupAirmarAccessLevel),
  ("lookupAirmarCogSubstitute", lookupAirmarCogSubstitute), ("lookupAirmarControl", lookupAirmarControl),
  ("lookupAirmarDepthQuality", lookupAirmarDepthQuality), ("lookupAirmarTempInstance", lookupAirmarTempInstance),
  ("lookupAirmarSpeedFilter", lookupAirmarSpeedFilter), ("lookupAirmarTempFilter", lookupAirmarTempFilter),
  ("lookupAirmarTransmissionInterval", lookupAirmarTransmissionInterval),
  ("lookupAirmarTestId", lookupAirmarTestId), ("lookupSonicHubControl", lookupSonicHubControl),
  ("lookupSonicHubSource", lookupSonicHubSource), ("lookupSonicHubTuning", lookupSonicHubTuning),
  ("lookupSonicHubMute", lookupSonicHubMute), ("lookupSonicHubPlaylist", lookupSonicHubPlaylist),
  ("lookupSonicHubZone", lookupSonicHubZone), ("lookupCompanyCode", lookupCompanyCode),
  ("lookupPriorityLevel", lookupPriorityLevel), ("lookupSimnetBacklightLevel", lookupSimnetBacklightLevel),
  ("lookupSimnetApEvents", lookupSimnetApEvents), ("lookupSimnetDirection", lookupSimnetDirection),
  ("lookupSimnetAlarm", lookupSimnetAlarm), ("lookupFusionMute", lookupFusionMute),
  ("lookupFusionTransport", lookupFusionTransport), ("lookupFusionTimeFormat", lookupFusionTimeFormat),
  ("lookupFusionReplayMode", lookupFusionReplayMode), ("lookupFusionReplayStatus", lookupFusionReplayStatus)]

end Argo.Nmea2k.Lookups
