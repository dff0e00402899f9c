.lake
