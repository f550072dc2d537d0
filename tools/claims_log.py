L='Argo.Log.'
c('C124','partial',[L+x for x in ['C124_total','C124_partial','C124_one_line','C124_forged_false','C124_newline_false','C124_temperature_false','C124_position_false']],
  'False for texts of the bus with a semicolon (C124_forged_false: two different messages, one line) or a line feed (C124_newline_false), and of numbers: six digits after the point of a binary number (C124_temperature_false, C124_position_false). C124_partial: without semicolons a reader recovers the receipt, the header, the description and every entry, numbers to half a millionth and the tolerance of C121. C124_one_line: exactly which messages make one line.')
c('C128','partial',[L+x for x in ['C128_partial','C128_forged_false','C128_password_false']],
  'False of posted settings: any text can be made a line of the loop by a POST to /admin, which needs no password (C128_forged_false), and the broker password posted is written to the log (C128_password_false). C128_partial: at any moment of any schedule, with any records of other goroutines between those of the loop, a reader of the lines marked INFO finds the messages taken that pass the options, in order, one line each, with the content of C124, if no text of the bus and no posted setting has a line feed. Records of other goroutines are not marked INFO (log.Info is called at argo.go:168 only) and keep to a line (hypothesis Other).')
