end Verif.Props
