Y='Argo.Playback.'
c('C125','partial',[Y+x for x in ['C125_json','C125_exact','C125_line_partial','C125_malformed_false','C125_number_false','C125_case_false']],
  'C125_json: which lines are accepted (exactly JSON, unless something had to be replaced by U+FFFD). C125_exact says what is taken from any line. False for lines that are not JSON (C125_malformed_false: they become messages with PGN 0 from device 0), for header numbers that do not fit or are written with a point (C125_number_false: 0 in their place) and for names in another case (C125_case_false). C125_line_partial: every line in the form CanBoat writes is handed over as it is. The Go value of a JSON value in the fields is a parameter.')
c('C126','partial',[Y+x for x in ['C126_exact','C126_refused','C126_line','C126_partial','C126_shown','C126_zone_false','C126_dash_false']],
  'C126_exact: exactly which texts are understood and as what; C126_refused: all others give the year 1; C126_line: what that means for any line. False for the time stamps CanBoat writes: with a Z or another character outside the layout (C126_zone_false, every such text) and with a dash between date and time (C126_dash_false) the message is given the year 1. C126_partial: every time stamp of the layout without zone, with up to nine digits of a second, is the instant the message is given and the log shows it; C126_shown: with three digits the log shows the text of the line itself.')
