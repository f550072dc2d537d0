F='Argo.Float.'
c('C121','proved',[F+x for x in ['C121_value','C121_decoded','C121_recover','C121_angle','C121_factors','C121_client','C121_complete','C121_exact_false']],
  'IEEE rounding is computed (Round.lean); the texts by the documented contract of strconv (shortest digits that read back) and the layout of encoding/json. C121_exact_false: scaled numbers are not exact, so a tolerance is needed (7 tenths are not printed as 0.7).')
c('C122','partial',[F+x for x in ['C122_wide','C122_near_partial','C122_false','C122_delta_false']],
  'False of positions of 4 bytes: computed in float32, so that beyond 107 degrees 127 neighbouring positions have the same text (C122_false), end to end in C122_delta_false. C122_near_partial is what holds of them.')
