J='Argo.Json.'
c('C123','partial',[J+x for x in ['C123_delta_partial','C123_client_partial','C123_complete_partial','C123_wrap_false','C123_zone_false']]+['Argo.Signalk.civil_calendar'],
  'Exact with the computer set to UTC and dates up to 6 February 2106. False otherwise: seconds since 1970 are kept in 32 bits (C123_wrap_false), and in other zones the text denotes another instant, west of UTC with the date of the day before (C123_zone_false). civil_calendar: the date formulas of the model are the calendar counted day by day.')
